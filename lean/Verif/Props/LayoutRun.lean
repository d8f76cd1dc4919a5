import Verif.Spec.LayoutRun
import Verif.Props.Layout
import Verif.Props.Accept
/-!
# C84: the decision about change outputs, from the bytes in memory
-/
namespace Ergo
open Spec

theorem proper_append {a : Abi} : ∀ (l L : List Access) (k : Kept), Proper a k l →
    Proper a (l.foldl (Kept.step a) k) L → Proper a k (l ++ L)
  | [], _, _, _, h => h
  | x :: xs, L, k, h1, h2 => ⟨h1.1, proper_append xs L (k.step a x) h1.2 h2⟩

theorem kept_append (a : Abi) (l L : List Access) :
    kept a (l ++ L) = L.foldl (Kept.step a) (kept a l) := by simp [kept]

/-- Accesses that never store and keep the path approved last. -/
theorem quiet_writes {a : Abi} : ∀ (L : List Access) (k : Kept),
    (∀ x ∈ L, Access.anyOutput x ∨ Access.isUi x ∨ Access.isApprove x ∨ Access.isSerializer x ∨ Access.beforePath a x) →
    Proper a k L ∧ (L.foldl (Kept.step a) k).last = k.last
  | [], _, _ => ⟨trivial, rfl⟩
  | x :: xs, k, h => by
    obtain ⟨h1, h2⟩ := quiet_writes xs (k.step a x) (fun y hy => h y (by simp [hy]))
    have hx := h x (by simp)
    have : x ≠ .store ∧ (k.step a x).last = k.last := by
      cases x <;> simp [Access.anyOutput, Access.isUi, Access.isApprove, Access.isSerializer,
        Access.beforePath] at hx <;> simp [Kept.step]
      split <;> rfl
    exact ⟨⟨fun e => absurd e this.1, h1⟩, h2.trans this.2⟩

/-- Accesses that keep the path of the output. -/
theorem outer_writes {a : Abi} : ∀ (L : List Access) (k : Kept),
    (∀ x ∈ L, Access.isUi x ∨ Access.beforePath a x) → (L.foldl (Kept.step a) k).out = k.out
  | [], _, _ => rfl
  | x :: xs, k, h => by
    have h2 := outer_writes xs (k.step a x) (fun y hy => h y (by simp [hy]))
    have hx := h x (by simp)
    refine h2.trans ?_
    cases x <;> simp [Access.isUi, Access.beforePath] at hx <;> simp [Kept.step, hx]

/-- What the accesses of a session leave, without bytes. -/
structure LogKept (a : Abi) (log : List Entry) (l : List Access) : Prop where
  proper : Proper a ⟨none, []⟩ l
  last : (kept a l).last = lastPath (describe log).outputs
  out : ∀ q, (describe log).newest = some (.change q) → (kept a l).out = some q

theorem newest_cons {D : TxDesc} {o : OutDesc} {os : List OutDesc} (h : D.outputs = o :: os) :
    D.newest = o.box.script := by simp [TxDesc.newest, h]

theorem addTree_notChange (o : BoxDesc Nat) (d : Bytes) (q : List UInt32) :
    (o.addTree d).script ≠ some (.change q) := by
  unfold BoxDesc.addTree
  split <;> simp

theorem onOutput_newest (D : TxDesc) (f : BoxDesc Nat → BoxDesc Nat) :
    (D.onOutput f).newest = D.outputs.head?.bind (fun o => (f o.box).script) := by
  unfold TxDesc.onOutput TxDesc.newest
  cases h : D.outputs <;> simp [h]

/-- A command keeps what is known, if the description follows it. -/
theorem LogKept.cmd {a : Abi} {log : List Entry} {l L : List Access} {sub : UInt8} {data : Bytes}
    (h : LogKept a log l) (h1 : 0x10 ≤ sub) (h2 : sub ≤ 0x1A)
    (hw : CmdWrites a (describe log) sub data L)
    (hlast : lastPath (describe (log ++ [.cmd sub data])).outputs = lastPath (describe log).outputs)
    (hkeep : sub < 0x15 → (describe (log ++ [.cmd sub data])).newest = (describe log).newest ∨
      (describe (log ++ [.cmd sub data])).newest = none) :
    LogKept a (log ++ [.cmd sub data]) (l ++ L) := by
  unfold CmdWrites at hw
  split at hw
  · rename_i e; subst e
    obtain ⟨L1, L2, rfl, hL1, hL2⟩ := hw
    have q1 := quiet_writes (a := a) L1 (kept a l) (fun x hx => .inl (hL1 x hx))
    have q2 := quiet_writes (a := a) L2 ((L1.foldl (Kept.step a) (kept a l)).step a (.setPath (pathOf data)))
      (fun x hx => .inr (.inr (.inr (.inr (hL2 x hx)))))
    refine ⟨?_, ?_, ?_⟩
    · refine proper_append _ _ _ h.proper (proper_append _ _ _ q1.1 ⟨by simp, q2.1⟩)
    · rw [kept_append, List.foldl_append, List.foldl_cons, q2.2, hlast, ← h.last]
      exact q1.2
    · intro q hq
      rw [kept_append, List.foldl_append, List.foldl_cons,
        outer_writes L2 _ (fun x hx => .inr (hL2 x hx))]
      rw [describe_append, step_change, onOutput_newest] at hq
      cases ho : (describe log).outputs with
      | nil => simp [ho] at hq
      | cons o os =>
        simp only [ho, List.head?_cons, Option.bind_some, Option.some.injEq, Script.change.injEq] at hq
        simp [Kept.step, hq]
  split at hw
  · rename_i e
    have q1 := quiet_writes (a := a) L (kept a l) (fun x hx => .inl (hw.1 x hx))
    refine ⟨proper_append _ _ _ h.proper q1.1, ?_, ?_⟩
    · rw [kept_append, q1.2, hlast, h.last]
    · intro q hq
      have hq' : (describe log).newest = some (.change q) := by
        rw [describe_append] at hq
        rcases e with rfl | rfl
        · rw [step_outTokens, onOutput_newest] at hq; exact hq
        · rw [step_regs, onOutput_newest] at hq; exact hq
      rw [kept_append, outer_writes L _ (fun x hx => .inr (hw.2 ⟨q, hq'⟩ x hx))]
      exact h.out q hq'
  split at hw
  · rename_i e8 e9 e5
    have q1 := quiet_writes (a := a) L (kept a l) (fun x hx => .inl (hw x hx))
    refine ⟨proper_append _ _ _ h.proper q1.1, ?_, ?_⟩
    · rw [kept_append, q1.2, hlast, h.last]
    · intro q hq
      exfalso
      have : sub = 0x15 ∨ sub = 0x16 ∨ sub = 0x17 := by
        simp only [UInt8.le_iff_toNat_le, ← UInt8.toNat_inj] at *
        simp at *
        omega
      rw [describe_append] at hq
      rcases this with rfl | rfl | rfl
      · simp [TxDesc.step, TxDesc.newest, outHeader] at hq
      · rw [step_tree, onOutput_newest] at hq
        cases ho : (describe log).outputs with
        | nil => simp [ho] at hq
        | cons o os => simp only [ho, List.head?_cons, Option.bind_some] at hq; exact addTree_notChange _ _ _ hq
      · rw [step_fee, onOutput_newest] at hq
        cases ho : (describe log).outputs <;> simp [ho] at hq
  · rename_i e8 e9 e5
    have q1 := quiet_writes (a := a) L (kept a l) (fun x hx => .inr (.inr (.inr (.inl (hw x hx)))))
    refine ⟨proper_append _ _ _ h.proper q1.1, ?_, ?_⟩
    · rw [kept_append, q1.2, hlast, h.last]
    · intro q hq
      have hlt : sub < 0x15 := by
        rw [UInt8.le_iff_toNat_le] at e5
        rw [UInt8.lt_iff_toNat_lt]; omega
      have hq' : (describe log).newest = some (.change q) := by
        rcases hkeep hlt with hk | hk
        · rw [← hk]; exact hq
        · rw [hk] at hq; cases hq
      rw [kept_append, outer_writes L _ (fun x hx => .inr ?_)]
      · exact h.out q hq'
      · have := hw x hx
        cases x <;> simp [Access.isSerializer] at this <;> trivial

theorem LogKept.approve {a : Abi} {log : List Entry} {l L : List Access} (h : LogKept a log l)
    (hw : ApproveWrites (describe log) L) (hne : (describe log).outputs ≠ []) :
    LogKept a (log ++ [.approve]) (l ++ L) := by
  obtain ⟨U1, U2, st, rfl, hU1, hU2, hst⟩ := hw
  cases ho : (describe log).outputs with
  | nil => exact absurd ho hne
  | cons o os =>
    have hstep : (describe (log ++ [.approve])).outputs = { o with approved := true } :: os := by
      rw [describe_append]; simp only [TxDesc.step, ho]
    have hnew : (describe (log ++ [.approve])).newest = (describe log).newest := by
      rw [newest_cons hstep, newest_cons ho]
    have q1 := quiet_writes (a := a) U1 (kept a l) (fun x hx => .inr (.inl (hU1 x hx)))
    have o1 := outer_writes (a := a) U1 (kept a l) (fun x hx => .inl (hU1 x hx))
    generalize hk1 : U1.foldl (Kept.step a) (kept a l) = k1 at q1 o1
    have q2 := quiet_writes (a := a) U2 (k1.step a .clear) (fun x hx => .inr (.inl (hU2 x hx)))
    have o2 := outer_writes (a := a) U2 (k1.step a .clear) (fun x hx => .inl (hU2 x hx))
    generalize hk2 : U2.foldl (Kept.step a) (k1.step a .clear) = k2 at q2 o2
    have hout : k2.out = (kept a l).out := by rw [o2]; exact o1
    have hk : kept a (l ++ (U1 ++ Access.clear :: (U2 ++ Access.clear :: st))) =
        st.foldl (Kept.step a) (k2.step a .clear) := by
      rw [kept_append, List.foldl_append, List.foldl_cons, List.foldl_append, List.foldl_cons, hk1, hk2]
    have hpr : Proper a (k2.step a .clear) st →
        Proper a ⟨none, []⟩ (l ++ (U1 ++ Access.clear :: (U2 ++ Access.clear :: st))) := by
      intro hp
      refine proper_append _ _ _ h.proper (proper_append _ _ _ q1.1 ⟨by simp, ?_⟩)
      change Proper a ((U1.foldl (Kept.step a) (kept a l)).step a .clear) _
      rw [hk1]
      refine proper_append _ _ _ q2.1 ⟨by simp, ?_⟩
      rw [hk2]; exact hp
    rcases hst with ⟨⟨q, hq⟩, rfl⟩ | ⟨hn, rfl⟩
    · have hoq := h.out q hq
      rw [hoq] at hout
      have e1 : (k2.step a .clear).out = some q := hout
      refine ⟨hpr ⟨fun _ => by rw [e1]; simp, trivial⟩, ?_, ?_⟩
      · rw [hk, hstep]
        rw [newest_cons ho] at hq
        simp [Kept.step, hout, lastPath, hq]
      · intro r hr
        rw [hnew, hq] at hr
        cases hr
        rw [hk]; exact e1
    · refine ⟨hpr trivial, ?_, ?_⟩
      · rw [hk, hstep]
        show [] = _
        simp only [lastPath, List.find?_cons]
        split
        · rename_i r hr
          exact absurd ⟨r, by rw [newest_cons ho]; exact hr⟩ hn
        · rfl
      · intro r hr
        rw [hnew] at hr
        exact absurd ⟨r, hr⟩ hn

/-- A command of a session. -/
theorem LogKept.accepted {env : Env} {key h0 : Bytes} {p p' : P2pk} {a : Abi} {log : List Entry}
    {sub : UInt8} {data : Bytes} (hP : PRel env h0 p (describe log))
    (ih : ∀ l, Wrote a log.reverse l → LogKept a log l) (h1 : 0x10 ≤ sub) (h2 : sub ≤ 0x1A)
    (ho : signOp env key p sub data = .ok p') (l : List Access)
    (hw : Wrote a (log ++ [Entry.cmd sub data]).reverse l) : LogKept a (log ++ [.cmd sub data]) l := by
  rw [List.reverse_append] at hw
  obtain ⟨l0, L, rfl, hw0, hc⟩ := hw
  change Wrote a log.reverse l0 at hw0
  change CmdWrites a (describe log.reverse.reverse) sub data L at hc
  rw [List.reverse_reverse] at hc
  refine (ih l0 hw0).cmd h1 h2 hc ?_ ?_
  · rw [describe_append]
    by_cases e : sub = 0x10
    · subst e
      have hst := (opStart_rel hP ho).1
      unfold PRel at hP
      rw [hst] at hP
      rw [hP.2.2]; rfl
    by_cases hge : 0x16 ≤ sub
    · obtain ⟨o, os, b, hD, hD', _, hna⟩ := part_newest hP ho hge
      rw [hD, hD']
      simp [lastPath, hna]
    · have hlt : sub < 0x16 := by
        rw [UInt8.le_iff_toNat_le] at hge
        rw [UInt8.lt_iff_toNat_lt]; omega
      rcases step_grows (D := describe log) (data := data) hlt e with he | he
      · rw [he]
      · rw [he]; simp [lastPath]
  · intro hlt
    rw [describe_append]
    by_cases e : sub = 0x10
    · subst e; right; rfl
    · rcases step_grows (D := describe log) (data := data) (UInt8.lt_trans hlt (by decide)) e with he | he
      · left; simp [TxDesc.newest, he]
      · right; simp [TxDesc.newest, he, outHeader]

/-- In every session. -/
theorem session_kept {env : Env} {nanoS : Bool} {key : Bytes} {tr : List Obs} {d : Device}
    (h : Runs env nanoS key tr d) {x : SignCtx} {S : SignSess} (hx : d.ctx = .sign x)
    (ha : x.approved = true) (hS : (know tr).sign = some S) (a : Abi) (l : List Access)
    (hw : Wrote a S.log.reverse l) : LogKept a S.log l := by
  have hcmd : ∀ {S : SignSess} {x : SignCtx} {sub : UInt8} {data : Bytes} {p : P2pk} {w : Prop},
      SignRel env w S x → (∀ l, Wrote a S.log.reverse l → LogKept a S.log l) → 0x10 ≤ sub → sub ≤ 0x1A →
      signOp env key x.p sub data = .ok p → ∀ l, Wrote a (S.log ++ [Entry.cmd sub data]).reverse l →
        LogKept a (S.log ++ [.cmd sub data]) l := by
    intro S x sub data p w hR ih h1 h2 ho
    obtain ⟨_, _, _, _, _, _, _, _, _, hP, _⟩ := hR
    exact LogKept.accepted hP ih h1 h2 ho
  have := sign_induct (env := env) (key := key) (fun w S x => SignRel env w S x ∧
    ∀ l, Wrote a S.log.reverse l → LogKept a S.log l) ?_ ?_ ?_ ?_ ?_ h x S hx ha hS
  · exact this.2 l hw
  · intro r network path token p0 s h1 h2
    refine ⟨signRel_init r network path token p0 s h1 h2, fun l hw => ?_⟩
    have q := quiet_writes (a := a) l ⟨none, []⟩ (fun x hx => .inr (.inr (.inl (hw x hx))))
    exact ⟨q.1, q.2, fun q hq => by cases hq⟩
  · rintro S x sub data p ⟨hR, hl⟩ h1 h2 ho hn
    exact ⟨signRel_step S x sub data p hR h1 h2 ho hn, hcmd hR hl h1 h2 ho⟩
  · rintro S x sub data p t o ⟨hR, hl⟩ h1 h2 ho hn hu hout
    exact ⟨signRel_show S x sub data p t o hR h1 h2 ho hn hu hout,
      hcmd hR hl (UInt8.le_trans (by decide) h1) h2 ho⟩
  · rintro S x t o last ⟨hR, hl⟩ hu hout hla
    refine ⟨signRel_approve S x t o last hR hu hout hla, fun l hw => ?_⟩
    simp only [List.reverse_append] at hw
    obtain ⟨l0, L, rfl, hw0, hc⟩ := hw
    change Wrote a S.log.reverse l0 at hw0
    change ApproveWrites (describe S.log.reverse.reverse) L at hc
    rw [List.reverse_reverse] at hc
    refine (hl l0 hw0).approve hc ?_
    obtain ⟨_, _, _, _, _, _, _, _, _, hP, _, hq⟩ := hR
    obtain ⟨hst, o1, os, hD, _⟩ := hq trivial
    rw [hD]; simp
  · rintro S x ⟨hR, hl⟩ hst
    exact ⟨signRel_confirm S x hR hst, hl⟩

/-- C84: in an open signing session the bytes of `last_approved_change` are those of the change path the
user approved last, or of no path if the last approved output was not change. -/
theorem C84_last {env : Env} {nanoS : Bool} {key : Bytes} {tr : List Obs} {d : Device}
    (h : Runs env nanoS key tr d) {S : SignSess} (hS : (know tr).sign = some S) (hL : Live tr)
    (hn : d.asks = none) {a : Abi} (ha : Spec.Abi.WF a) (m : UMem) (l : List Access)
    (hw : Wrote a S.log.reverse l) (hi : ∀ x ∈ l, x.inside a) :
    HoldsPath (memAfter a m l) a.lastAt (approvedChange (describe S.log).outputs) := by
  obtain ⟨_, _, _, x, hx, hap, _⟩ := ready_sign h hS hL hn
  have hk := session_kept h hx hap hS a l hw
  have := C83_kept ha m l hi hk.proper
  rw [hk.last] at this
  exact this

/-- C84: when an accepted command sends a part of an output that goes to a key of the device, the device
asks about the output exactly if the output is complete and its path has not five components, or differs
from the bytes of `last_approved_change` in the comparison of the C code and is outside the window of the
signing path; whatever the memory contained before, and whatever the steps of the session wrote. -/
theorem C84_decision {env : Env} {nanoS : Bool} {key : Bytes} {tr : List Obs} {d : Device}
    (h : Runs env nanoS key tr d) {S : SignSess} (hS : (know tr).sign = some S) (hL : Live tr)
    (hn : d.asks = none) (sub : UInt8) (data : Bytes) (hl : data.length ≤ 255)
    (h1 : 0x16 ≤ sub) (h2 : sub ≤ 0x1A) (rnd : Rnd) (hf : Spec.Fits env key (describe S.log) sub data)
    {o : OutDesc} {older : List OutDesc} {q : List UInt32}
    (hD : (describe (S.log ++ [.cmd sub data])).outputs = o :: older)
    (hq : o.box.script = some (.change q)) {a : Abi} (ha : Spec.Abi.WF a) (m : UMem) (l : List Access)
    (hw : Wrote a (S.log ++ [Entry.cmd sub data]).reverse l) (hi : ∀ x ∈ l, x.inside a) :
    (d.step env nanoS (.apdu 0xE0 0x21 sub S.id data rnd)).2 = .wait ↔ o.box.complete = true ∧
      ¬ (q.length = 5 ∧ (a.sameAsLast (memAfter a m l) = true ∨
        InWindow (pathOf (S.start.data.drop 1)) o.box)) := by
  obtain ⟨o', older', hD', hr, _⟩ := C49_asked h hS hL hn sub data hl h1 h2 rnd hf
  rw [hD] at hD'
  simp only [List.cons.injEq] at hD'
  obtain ⟨rfl, rfl⟩ := hD'
  rw [hr]
  obtain ⟨_, _, _, x, hx, hap, _, _, hnf, h0, hR⟩ := ready_sign h hS hL hn
  have h1' : 0x10 ≤ sub := UInt8.le_trans (by decide) h1
  obtain ⟨p, ho⟩ := (signOp_fits hR hnf (got_pos h hS) hl key h1' h2).2 hf
  have hR' := signOp_rel hR ho h1' h2
  obtain ⟨_, _, _, hd0, hd1, hst, hna⟩ := part_newest hR ho h1
  rw [describe_append] at hD
  rw [hD] at hd1
  simp only [List.cons.injEq] at hd1
  obtain ⟨t, _, _, _, _, _, _, _, hT⟩ := hR'.newest hst
  have hpath : ∀ o' ∈ o :: older, ∀ r, o'.box.script = some (.change r) → IsAddressPath r := by
    intro o' ho' r hr
    rw [← validate_address]
    exact (hT.paths o' (by rw [hD]; exact ho') r hr).1
  have hqa := hpath o (by simp) q hq
  have hk := LogKept.accepted hR (fun l hw => session_kept h hx hap hS a l hw) h1' h2 ho l hw
  have hsame := C83_compare ha m l hi hk.proper (p := q)
    (hk.out q (by rw [describe_append, newest_cons hD]; exact hq))
  change a.sameAsLast (memAfter a m l) = _ at hsame
  rw [hsame, hk.last, describe_append, hD]
  have hlp : lastPath (o :: older) = lastPath older := by
    have : o.approved = false := by rw [hd1.1]; exact hna
    simp [lastPath, this]
  rw [hlp]
  refine and_congr_right fun _ => not_congr ?_
  unfold Automatic
  constructor
  · rintro (hc | ⟨r, hr, hra, h5, hc⟩ | ⟨r, hr, hra, h5, o2, r2, ho2, hr2, ha2, h52⟩)
    · rw [hc.1] at hq; cases hq
    · have hr' := hr
      rw [hq] at hr'
      simp only [Option.some.injEq, Script.change.injEq] at hr'
      subst hr'
      exact ⟨h5, .inr ⟨q, hr, hra, h5, hc⟩⟩
    · rw [hq] at hr
      simp only [Option.some.injEq, Script.change.injEq] at hr
      subst hr
      refine ⟨h5, .inl ?_⟩
      have e : lastPath older = r2 := by simp [lastPath, ho2, hr2]
      rw [e, isEqual_always q r2 hqa ha2 h5]
      simp [h52]
  · rintro ⟨h5, hc | hc⟩
    · right; right
      have : ∃ o2 r2, older.find? (·.approved) = some o2 ∧ o2.box.script = some (.change r2) := by
        by_contra hno
        have e : lastPath older = [] := by
          unfold lastPath
          split
          · rename_i o2 ho2
            split
            · rename_i r2 hr2; exact absurd ⟨o2, r2, ho2, hr2⟩ hno
            · rfl
          · rfl
        rw [e] at hc
        simp [pathIsEqual, h5] at hc
      obtain ⟨o2, r2, ho2, hr2⟩ := this
      have e : lastPath older = r2 := by simp [lastPath, ho2, hr2]
      have hra := hpath o2 (by simp [List.mem_of_find?_eq_some ho2]) r2 hr2
      rw [e, isEqual_always q r2 hqa hra h5] at hc
      exact ⟨q, hq, hqa, h5, o2, r2, ho2, hr2, hra, by simpa using hc⟩
    · right; left; exact hc

/-- A session with change outside of the window, asked about and approved, and a second output. -/
def demoTwo : List Event :=
  demoOpen ++ [cmd 0x21 0x10 7 [0, 1, 0, 0, 0, 0, 2], cmd 0x21 0x12 7 (demoFrame 1 1 0 100 [] [0, 0, 0, 0]),
   cmd 0x21 0x15 7 [0, 0, 0, 0, 0, 0, 0, 90, 0, 0, 0, 36, 0, 0, 0, 1, 0, 0, 0, 0, 0],
   cmd 0x21 0x18 7 (demoPath 30), .left, .left, .both,
   cmd 0x21 0x15 7 [0, 0, 0, 0, 0, 0, 0, 10, 0, 0, 0, 36, 0, 0, 0, 1, 0, 0, 0, 0, 0]]

def demoTwoLog : List Entry :=
  [.cmd 0x10 [0, 1, 0, 0, 0, 0, 2], .cmd 0x12 (demoFrame 1 1 0 100 [] [0, 0, 0, 0]),
   .cmd 0x15 [0, 0, 0, 0, 0, 0, 0, 90, 0, 0, 0, 36, 0, 0, 0, 1, 0, 0, 0, 0, 0],
   .cmd 0x18 (demoPath 30), .approve,
   .cmd 0x15 [0, 0, 0, 0, 0, 0, 0, 10, 0, 0, 0, 36, 0, 0, 0, 1, 0, 0, 0, 0, 0]]

/-- Possible accesses: the question fills its member, the output is cleared and gets its path. -/
def demoTwoWrites : List Access :=
  ((((([.approve 0 (List.replicate 80 0xFF)] ++ [.serializer 0 (List.replicate 80 1)]) ++
    [.serializer 0 [2, 3]]) ++ [.output 0 (List.replicate 232 0)]) ++
    ([.serializer 4 [7]] ++ Access.setPath (pathOf (demoPath 30)) :: [.output 168 [0xC3]])) ++
    ([.outputUi 0 (List.replicate 100 0)] ++ Access.clear :: ([.outputUi 0 [65, 66]] ++
      Access.clear :: [.store]))) ++ [.output 0 (List.replicate 232 0)]

/-- The accesses are possible ones; the second change path is taken as approved although it is another
one (C34), in the bytes and on the device: it is not asked about.  The first was. -/
example : Runs toyEnv false [1] (seen demoTwo) (after demoTwo) ∧
    (know (seen demoTwo)).sign.map (·.log) = some demoTwoLog ∧ (after demoTwo).asks = none ∧
    (after (demoTwo.take 6)).asks = some .confirmOutput ∧
    Wrote demoAbi (demoTwoLog ++ [Entry.cmd 0x18 (demoPath 40)]).reverse
      (demoTwoWrites ++ ([] ++ Access.setPath (pathOf (demoPath 40)) :: [])) ∧
    demoAbi.sameAsLast (memAfter demoAbi (fun _ => 0xAA)
      (demoTwoWrites ++ ([] ++ Access.setPath (pathOf (demoPath 40)) :: []))) = true ∧
    ((after demoTwo).step toyEnv false (cmd 0x21 0x18 7 (demoPath 40))).2 = .sw 0x9000 [] := by
  refine ⟨runs_boot _ (by decide +kernel), by decide +kernel, by decide +kernel, by decide +kernel, ?_,
    by decide +kernel, by decide +kernel⟩
  refine ⟨_, _, rfl, ⟨_, _, rfl, ⟨_, _, rfl, ⟨_, _, rfl, ⟨_, _, rfl, ⟨_, _, rfl, ⟨_, _, rfl, ?_, ?_⟩, ?_⟩,
    ?_⟩, ?_⟩, ?_⟩, ?_⟩, ?_⟩
  · simp [Wrote, Access.isApprove]
  · simp [CmdWrites, Access.isSerializer]
  · simp [CmdWrites, Access.isSerializer]
  · simp [CmdWrites, Access.anyOutput]
  · exact ⟨[.serializer 4 [7]], [.output 168 [0xC3]], rfl, by simp [Access.anyOutput],
      by simp only [List.mem_singleton, forall_eq]; show _ ≤ _; decide +kernel⟩
  · exact ⟨_, _, _, rfl, by simp [Access.isUi], by simp [Access.isUi],
      .inl ⟨⟨pathOf (demoPath 30), by decide +kernel⟩, rfl⟩⟩
  · simp [CmdWrites, Access.anyOutput]
  · exact ⟨[], [], rfl, by simp, by simp⟩

end Ergo
