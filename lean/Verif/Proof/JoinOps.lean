import Verif.Proof.Join
import Verif.Proof.SignSim
/-!
# Two accepted pieces of one part are as good as one: the signing operation
-/
namespace Ergo

/-! ## Parts that do not touch the output -/

theorem withTx_join {p p1 p2 : P2pk} {f g k : FullSt → FullSt × Res FullErr}
    (hs : ∀ x x1 r1, f x = (x1, r1) → r1.passes → x1.s.o = x.s.o)
    (hj : ∀ x x1 x2 r1 r2, f x = (x1, r1) → r1.passes → g x1 = (x2, r2) → r2.passes →
      k x = (x2, r2))
    (h1 : p.withTx f = .ok p1) (h2 : p1.withTx g = .ok p2) : p.withTx k = .ok p2 := by
  unfold P2pk.withTx at h1
  cases hu : p.u with
  | transaction t =>
    simp only [hu] at h1
    generalize hq : f ⟨t.tx, p.hash, ⟨p.amounts, t.out.getD (.init 0)⟩⟩ = q at h1
    obtain ⟨x1, r1⟩ := q
    have key : r1.passes ∧ p1 = { p with
        hash := x1.h, amounts := x1.s.a, u := .transaction { t with tx := x1.c } } := by
      cases r1 <;> simp only [OpRes.ok.injEq, reduceCtorEq] at h1 <;> exact ⟨rfl, h1.symm⟩
    obtain ⟨pp1, rfl⟩ := key
    have ho := hs _ _ _ hq pp1
    unfold P2pk.withTx at h2
    simp only at h2
    have e : (⟨x1.c, x1.h, ⟨x1.s.a, t.out.getD (.init 0)⟩⟩ : FullSt) = x1 := by
      obtain ⟨c, h, ⟨a, o⟩⟩ := x1
      simp only at ho
      simp [ho]
    rw [e] at h2
    generalize hq2 : g x1 = q2 at h2
    obtain ⟨x2, r2⟩ := q2
    have pp2 : r2.passes := by
      cases r2 <;> simp only [reduceCtorEq] at h2 <;> rfl
    unfold P2pk.withTx
    simp only [hu, hj _ _ _ _ _ hq pp1 hq2 pp2]
    cases r2 <;> simp_all
  | zero => simp [hu] at h1
  | uiApprove _ => simp [hu] at h1
  | uiConfirm => simp [hu] at h1

theorem fullAddTokens_out {x x1 : FullSt} {r1 : Res FullErr} {a : Bytes}
    (h : x.addTokens a = (x1, r1)) : x1.s.o = x.s.o := by
  unfold FullSt.addTokens at h
  split at h
  · simp only [FullSt.fail, Prod.mk.injEq] at h; rw [← h.1]
  · simp only at h
    split at h <;> simp only [FullSt.fail, Prod.mk.injEq] at h <;> rw [← h.1]

theorem inputFinished_out (x : FullSt) : x.inputFinished.1.s = x.s := by
  unfold FullSt.inputFinished FullSt.dataInputsFinished
  simp only
  split
  · split <;> rfl
  · rfl

theorem fullAddExtension_out {x x1 : FullSt} {r1 : Res FullErr} {a : Bytes}
    (h : x.addInputExtension a = (x1, r1)) : x1.s.o = x.s.o := by
  unfold FullSt.addInputExtension at h
  split at h
  · simp only [FullSt.fail, Prod.mk.injEq] at h; rw [← h.1]
  · split at h
    · simp only at h
      split at h
      · rw [← show _ = x1 from congrArg Prod.fst h, inputFinished_out]
      all_goals simp only [FullSt.fail, Prod.mk.injEq] at h; rw [← h.1]
    · simp only [Prod.mk.injEq] at h; rw [← h.1]

theorem dataInputsLoop_out : ∀ (n : Nat) (b : Bytes) (x : FullSt),
    (FullSt.dataInputsLoop n b x).1.s = x.s
  | _, [], x => by cases ‹Nat› <;> rfl
  | 0, _ :: _, x => rfl
  | n + 1, b :: bs, x => by
    unfold FullSt.dataInputsLoop
    split
    · rfl
    · split
      · rfl
      · rw [dataInputsLoop_out n]

theorem fullAddDataInputs_out {x x1 : FullSt} {r1 : Res FullErr} {a : Bytes}
    (h : x.addDataInputs a = (x1, r1)) : x1.s.o = x.s.o := by
  unfold FullSt.addDataInputs at h
  split at h
  · simp only [FullSt.fail, Prod.mk.injEq] at h; rw [← h.1]
  · have hl := dataInputsLoop_out a.length a x
    split at h
    · rename_i y hy
      rw [hy] at hl
      split at h
      · simp only [FullSt.dataInputsFinished, Prod.mk.injEq] at h; rw [← h.1, ← hl]
      · simp only [Prod.mk.injEq] at h; rw [← h.1, ← hl]
    · rw [h] at hl; rw [← hl]

/-! ## Parts of the current output -/

theorem withOut_cases {p p1 : P2pk} {f : FullSt → FullSt × Res FullErr}
    {g : OutInfo → Bool → OutRes} (h : p.withOut f g = .ok p1) :
    p.state = .outputsStarted ∧ ∃ t o x1 r1 o1, p.u = .transaction t ∧ t.out = some o ∧
      f ⟨t.tx, p.hash, ⟨p.amounts, o⟩⟩ = (x1, r1) ∧ r1.passes ∧ g x1.s.o (r1 = .ok) = .ok o1 ∧
      p1 = { p with hash := x1.h, amounts := x1.s.a, state := p.checkFinished x1.c
                    u := .transaction { t with tx := x1.c, out := some o1 } } := by
  unfold P2pk.withOut at h
  split at h
  · simp at h
  rename_i hst
  cases hu : p.u with
  | transaction t =>
    simp only [hu] at h
    cases ho : t.out with
    | none => simp [ho] at h
    | some o =>
      simp only [ho] at h
      generalize hq : f ⟨t.tx, p.hash, ⟨p.amounts, o⟩⟩ = q at h
      obtain ⟨x1, r1⟩ := q
      refine ⟨not_not.1 hst, t, o, x1, r1, ?_⟩
      have hp : r1.passes := by
        cases r1 <;> first | rfl | simp at h
      have h' : (match g x1.s.o (decide (r1 = .ok)) with
          | .badState => OpRes.err Sw.badState
          | .ub => OpRes.ub
          | .ok o => OpRes.ok { p with
              hash := x1.h, amounts := x1.s.a, state := p.checkFinished x1.c
              u := .transaction { t with tx := x1.c, out := some o } }) = .ok p1 := by
        cases r1 with
        | err e => simp at h
        | ub => simp at h
        | ok => exact h
        | more => exact h
      cases hg : g x1.s.o (decide (r1 = .ok)) with
      | badState => rw [hg] at h'; simp at h'
      | ub => rw [hg] at h'; simp at h'
      | ok o1 =>
        rw [hg] at h'
        exact ⟨o1, rfl, ho, hq, hp, rfl, (OpRes.ok.inj h').symm⟩
  | zero => simp [hu] at h
  | uiApprove _ => simp [hu] at h
  | uiConfirm => simp [hu] at h

theorem withOut_intro {p : P2pk} {f : FullSt → FullSt × Res FullErr}
    {g : OutInfo → Bool → OutRes} {t : TxData} {o o1 : OutInfo} {x1 : FullSt} {r1 : Res FullErr}
    (hs : p.state = .outputsStarted) (hu : p.u = .transaction t) (ho : t.out = some o)
    (hf : f ⟨t.tx, p.hash, ⟨p.amounts, o⟩⟩ = (x1, r1)) (hp : r1.passes)
    (hg : g x1.s.o (r1 = .ok) = .ok o1) :
    p.withOut f g = .ok { p with hash := x1.h, amounts := x1.s.a, state := p.checkFinished x1.c
                                 u := .transaction { t with tx := x1.c, out := some o1 } } := by
  unfold P2pk.withOut
  rw [if_neg (not_not.2 hs)]
  simp only [hu, ho, hf]
  cases r1 with
  | err e => simp [Res.passes] at hp
  | ub => simp [Res.passes] at hp
  | ok => simp at hg ⊢; rw [hg]
  | more => simp at hg ⊢; rw [hg]

theorem accCbs_onToken_table (env : Env) (ty : BoxType) (id : Bytes) (v : UInt64) (s : Acc) :
    ((accCbs env).onToken ty id v s).1.a.table = s.a.table := by
  simp only [accCbs]
  split
  · unfold Amounts.addOutputToken
    simp only
    split
    · rfl
    · split <;> rfl
  · rfl

theorem accCbs_onFinished_a (env : Env) (ty : BoxType) (s : Acc) :
    ((accCbs env).onFinished ty s).1.a = s.a := rfl

theorem tokensLoop_table {env : Env} {tb : Option TableArg} : ∀ (n : Nat) (input : Bytes)
    (x : BoxSt Acc), (BoxSt.tokensLoop (accCbs env) tb n input x).1.s.a.table = x.s.a.table
  | n, [], x => by cases n <;> rfl
  | 0, _ :: _, x => rfl
  | n + 1, b :: bs, x => by
    unfold BoxSt.tokensLoop
    split
    · rfl
    split
    · rfl
    · rfl
    rename_i id rest hashed _
    simp only
    split
    · rfl
    rename_i v rest' _
    unfold BoxSt.check
    split
    · rw [tokensLoop_table n]; exact accCbs_onToken_table ..
    · rw [tokensLoop_table n]; exact accCbs_onToken_table ..
    · exact accCbs_onToken_table ..
    · exact accCbs_onToken_table ..

theorem finish_table {env : Env} (x : BoxSt Acc) :
    (x.finish (accCbs env)).1.s.a.table = x.s.a.table := by
  unfold BoxSt.finish BoxSt.check
  simp only
  split <;> rfl

theorem addTokens_table {env : Env} {tb : Option TableArg} (x : BoxSt Acc) (input : Bytes) :
    (x.addTokens (accCbs env) tb input).1.s.a.table = x.s.a.table := by
  unfold BoxSt.addTokens
  split
  · rfl
  have hl := tokensLoop_table (env := env) (tb := tb) input.length input x
  split
  · rename_i y hy
    rw [hy] at hl
    split
    · split
      · rw [finish_table]; exact hl
      · exact hl
    · exact hl
  · exact hl

theorem outputFinished_keeps (x : FullSt) :
    x.outputFinished.1.s = x.s ∧ x.outputFinished.1.c.distinct = x.c.distinct := by
  unfold FullSt.outputFinished
  simp only
  split <;> exact ⟨rfl, rfl⟩

theorem boxPart_keeps {f : BoxSt Acc → BoxSt Acc × Res BoxErr}
    (hf : ∀ y, (f y).1.s.a.table = y.s.a.table) (x : FullSt) :
    (x.boxPart f).1.s.a.table = x.s.a.table ∧ (x.boxPart f).1.c.distinct = x.c.distinct := by
  unfold FullSt.boxPart
  split
  · exact ⟨rfl, rfl⟩
  split
  · simp only
    split
    · split
      · rw [(outputFinished_keeps _).1, (outputFinished_keeps _).2]; exact ⟨hf _, rfl⟩
      · exact ⟨hf _, rfl⟩
    all_goals exact ⟨hf _, rfl⟩
  · exact ⟨rfl, rfl⟩

theorem fullAddBoxTokens_join {env : Env} {x x1 x2 : FullSt} {r1 r2 : Res FullErr} {a b : Bytes}
    (h1 : x.addBoxTokens env a = (x1, r1)) (p1 : r1.passes) (h2 : x1.addBoxTokens env b = (x2, r2))
    (p2 : r2.passes) : r1 = .more ∧ x.addBoxTokens env (a ++ b) = (x2, r2) := by
  have hk := boxPart_keeps (f := fun y => y.addTokens (accCbs env)
    (some (x.c.distinct, x.s.a.table)) a) (fun y => addTokens_table y a) x
  unfold FullSt.addBoxTokens at h1 h2 ⊢
  rw [h1] at hk
  obtain ⟨e1, e2⟩ := hk
  simp only at e1 e2
  rw [e1, e2] at h2
  exact boxPart_join (fun y y1 y2 q1 q2 a1 a2 a3 a4 _ _ => addTokens_join a1 a2 a3 a4) h1 p1 h2 p2

theorem fullAddBoxRegisters_join {env : Env} {x x1 x2 : FullSt} {r1 r2 : Res FullErr} {a b : Bytes}
    (h1 : x.addBoxRegisters env a = (x1, r1)) (p1 : r1.passes)
    (h2 : x1.addBoxRegisters env b = (x2, r2)) (p2 : r2.passes) :
    r1 = .more ∧ x.addBoxRegisters env (a ++ b) = (x2, r2) :=
  boxPart_join (fun y y1 y2 q1 q2 a1 a2 a3 a4 _ _ => addRegisters_join a1 a2 a3 a4) h1 p1 h2 p2

theorem withOut_join {p p1 p2 : P2pk} {f g k : FullSt → FullSt × Res FullErr}
    (hj : ∀ x x1 x2 r1 r2, f x = (x1, r1) → r1.passes → g x1 = (x2, r2) → r2.passes →
      r1 = .more ∧ k x = (x2, r2))
    (h1 : p.withOut f (fun o _ => .ok o) = .ok p1) (h2 : p1.withOut g (fun o _ => .ok o) = .ok p2) :
    p.withOut k (fun o _ => .ok o) = .ok p2 := by
  obtain ⟨hs, t, o, x1, r1, o1, hu, ho, hf, pp1, hg, rfl⟩ := withOut_cases h1
  obtain ⟨hs2, t2, o2, x2, r2, o3, hu2, ho2, hf2, pp2, hg2, rfl⟩ := withOut_cases h2
  simp only [P2pkU.transaction.injEq] at hu2
  subst hu2
  simp only [Option.some.injEq] at ho2
  subst ho2
  simp only [OutRes.ok.injEq] at hg hg2
  subst hg
  subst hg2
  obtain ⟨_, hk⟩ := hj _ _ _ _ _ hf pp1 hf2 pp2
  rw [withOut_intro hs hu ho hk pp2 rfl]
  simp only [P2pk.checkFinished] at hs2 ⊢
  rw [hs2, hs]

/-! ## The script -/

/-- Another output info, with the same "box finished" mark. -/
def reOut (o : OutInfo) (s : Acc) : Acc := ⟨s.a, { o with boxFinished := s.o.boxFinished }⟩

theorem setBoxFinished_open {env : Env} {o : OutInfo} (h : o.treeSet = false) :
    o.setBoxFinished env = ({ o with boxFinished := true }, .ok) := by
  simp [OutInfo.setBoxFinished, OutInfo.maybeFinished, OutInfo.finished, h]

theorem finish_reOut {env : Env} {o : OutInfo} (ho : o.treeSet = false) (x : BoxSt Acc)
    (hx : x.s.o.treeSet = false) :
    BoxSt.finish (accCbs env) { x with s := reOut o x.s } =
      let r := x.finish (accCbs env)
      ({ r.1 with s := reOut o r.1.s }, r.2) := by
  simp [BoxSt.finish, accCbs, setBoxFinished_open hx, BoxSt.check, reOut,
    setBoxFinished_open (o := { o with boxFinished := x.s.o.boxFinished }) (by exact ho)]

theorem treeAdded_reOut {env : Env} {o : OutInfo} (ho : o.treeSet = false) (x : BoxSt Acc)
    (hx : x.s.o.treeSet = false) :
    BoxSt.treeAdded (accCbs env) { x with s := reOut o x.s } =
      let r := x.treeAdded (accCbs env)
      ({ r.1 with s := reOut o r.1.s }, r.2) := by
  unfold BoxSt.treeAdded
  have e : (accCbs env).onType x.c.type x.c.value (reOut o x.s) =
      (reOut o ((accCbs env).onType x.c.type x.c.value x.s).1,
        ((accCbs env).onType x.c.type x.c.value x.s).2) := rfl
  have e2 : ((accCbs env).onType x.c.type x.c.value x.s).1.o = x.s.o := rfl
  simp only [e]
  generalize (accCbs env).onType x.c.type x.c.value x.s = q at e2
  obtain ⟨s, r⟩ := q
  have hk : (if x.c.tokensCount = 0 then
        if x.c.regsSize = 0 then BoxSt.finish (accCbs env) ⟨{ x.c with state := .tokensAdded },
          x.h ++ heightCountBytes x.c ++ gvePutU8 0, reOut o s⟩
        else (⟨{ x.c with state := .tokensAdded }, x.h ++ heightCountBytes x.c, reOut o s⟩, .ok)
      else (⟨{ x.c with state := .treeAdded }, x.h ++ heightCountBytes x.c, reOut o s⟩, Res.ok)) =
      let r := (if x.c.tokensCount = 0 then
        if x.c.regsSize = 0 then BoxSt.finish (accCbs env) ⟨{ x.c with state := .tokensAdded },
          x.h ++ heightCountBytes x.c ++ gvePutU8 0, s⟩
        else (⟨{ x.c with state := .tokensAdded }, x.h ++ heightCountBytes x.c, s⟩, .ok)
      else (⟨{ x.c with state := .treeAdded }, x.h ++ heightCountBytes x.c, s⟩, Res.ok))
      ({ r.1 with s := reOut o r.1.s }, r.2) := by
    split
    · split
      · exact finish_reOut ho ⟨_, _, s⟩ (by simp only at e2 ⊢; rw [e2]; exact hx)
      · rfl
    · rfl
  cases r with
  | ok => exact hk
  | more => exact hk
  | err e => rfl
  | ub => rfl

theorem addTree_reOut {env : Env} {o : OutInfo} (ho : o.treeSet = false) (x : BoxSt Acc)
    (hx : x.s.o.treeSet = false) (chunk : Bytes) :
    BoxSt.addTree (accCbs env) { x with s := reOut o x.s } chunk =
      let r := x.addTree (accCbs env) chunk
      ({ r.1 with s := reOut o r.1.s }, r.2) := by
  unfold BoxSt.addTree
  split
  · rfl
  split
  · rfl
  split
  · rfl
  simp only
  split
  · exact treeAdded_reOut ho ⟨_, _, x.s⟩ hx
  · rfl

theorem addBoxTree_reOut {env : Env} {o : OutInfo} (ho : o.treeSet = false) (x : FullSt)
    (hx : x.s.o.treeSet = false) (chunk : Bytes) :
    FullSt.addBoxTree env { x with s := reOut o x.s } chunk =
      let r := x.addBoxTree env chunk
      ({ r.1 with s := reOut o r.1.s }, r.2) := by
  unfold FullSt.addBoxTree FullSt.boxPart
  by_cases hst : x.c.state ≠ .outputsStarted
  · simp only [hst, if_true, FullSt.fail, ne_eq, not_false_eq_true]
  rw [if_neg hst, if_neg hst]
  cases hc : x.c.sub with
  | box b =>
    have e := addTree_reOut (env := env) ho ⟨b, x.h, x.s⟩ hx chunk
    simp only at e
    simp only [e]
    generalize BoxSt.addTree (accCbs env) ⟨b, x.h, x.s⟩ chunk = q
    obtain ⟨y, r⟩ := q
    cases r with
    | ok =>
      simp only
      split
      · unfold FullSt.outputFinished
        simp only
        split <;> rfl
      · rfl
    | more => rfl
    | err e => rfl
    | ub => rfl
  | zeroed => rfl
  | input _ => rfl

theorem addTreeChunk_open {env : Env} {o o1 : OutInfo} {a : Bytes}
    (h1 : o.addTreeChunk env a false = .ok o1) :
    o.treeSet = false ∧ ∃ bs, (o.type = .unknown ∧ bs = [] ∨ o.type = .script ∧ o.data = .hashing bs) ∧
      o1 = { o with type := .script, data := .hashing (bs ++ a) } := by
  have hcl1 : OutInfo.classify o a false = { o with type := .script, data := .hashing [] } := by
    unfold OutInfo.classify
    rw [if_neg (by simp), if_neg (by simp)]
  unfold OutInfo.addTreeChunk at h1
  split at h1
  · simp at h1
  rename_i ht
  split at h1
  · simp at h1
  rename_i hts
  have hts' : o.treeSet = false := by simpa using hts
  refine ⟨hts', ?_⟩
  by_cases hu : o.type = .unknown
  · refine ⟨[], .inl ⟨hu, rfl⟩, ?_⟩
    simp [hu, hcl1, OutInfo.maybeFinished, OutInfo.finished, hts', OutRes.ofMaybe] at h1
    simp [← h1, hts']
  · have hsc : o.type = .script := by tauto
    cases hd : o.data with
    | hashing bs =>
      refine ⟨bs, .inr ⟨hsc, rfl⟩, ?_⟩
      simp [hsc, hd, OutInfo.maybeFinished, OutInfo.finished, hts', OutRes.ofMaybe] at h1
      simp [← h1, hts']
    | _ => simp [hsc, hd] at h1

theorem addTreeChunk_join {env : Env} {o o1 o2 : OutInfo} {a b : Bytes} {fin done : Bool}
    (hl : maxChunk ≤ a.length) (h1 : o.addTreeChunk env a false = .ok o1)
    (h2 : OutInfo.addTreeChunk env { o1 with boxFinished := fin } b done = .ok o2) :
    OutInfo.addTreeChunk env { o with boxFinished := fin } (a ++ b) done = .ok o2 := by
  have hc : maxChunk = 255 := rfl
  have hcl : OutInfo.classify { o with boxFinished := fin } (a ++ b) done =
      { o with boxFinished := fin, type := .script, data := .hashing [] } := by
    unfold OutInfo.classify
    rw [if_neg (by simp; omega), if_neg (by simp; omega)]
  obtain ⟨hts', bs, hb, rfl⟩ := addTreeChunk_open h1
  rw [← h2]
  rcases hb with ⟨hu, rfl⟩ | ⟨hsc, hd⟩
  · simp only [hu, hts'] at hcl
    simp [OutInfo.addTreeChunk, hu, hcl, hts']
  · simp [OutInfo.addTreeChunk, hsc, hd, hts']

theorem addTree_ok_leaves {cbs : BoxCbs σ} {x x1 : BoxSt σ} {r1 : Res BoxErr} {a : Bytes}
    (h1 : x.addTree cbs a = (x1, r1)) (p1 : r1.passes) :
    r1 = .more ∧ x1.s = x.s ∧ maxChunk ≤ a.length ∨ x1.c.state ≠ .initialized := by
  unfold BoxSt.addTree at h1
  split at h1
  · exact (fail_not_passes h1 p1).elim
  split at h1
  · exact (fail_not_passes h1 p1).elim
  rename_i hl
  split at h1
  · exact (fail_not_passes h1 p1).elim
  rename_i hm
  simp only at h1
  split at h1
  · exact .inr (treeAdded_leaves h1 p1).2
  rename_i hz
  simp only [Prod.mk.injEq] at h1
  obtain ⟨rfl, rfl⟩ := h1
  rw [u32_eq_zero, u32_sub_ofNat x.c.treeSize (k := a.length) (by omega)] at hz
  exact .inl ⟨rfl, rfl, by omega⟩

theorem addTree_fails {cbs : BoxCbs σ} {x x1 : BoxSt σ} {r1 : Res BoxErr} {a : Bytes}
    (hx : x.c.state ≠ .initialized) (h1 : x.addTree cbs a = (x1, r1)) (p1 : r1.passes) : False := by
  unfold BoxSt.addTree at h1
  rw [if_pos hx] at h1
  exact fail_not_passes h1 p1

/-- The state read by the callbacks may be replaced between two calls. -/
theorem boxPart_state {x x1 : FullSt} {r1 : Res FullErr} {s : Acc}
    {f : BoxSt Acc → BoxSt Acc × Res BoxErr}
    (h : FullSt.boxPart ⟨x.c, x.h, s⟩ f = (x1, r1)) (p : r1.passes) :
    x.boxPart (fun y => f { y with s := s }) = (x1, r1) := by
  unfold FullSt.boxPart at h ⊢
  split at h
  · exact (full_fail_not_passes h p).elim
  rename_i hs
  rw [if_neg hs]
  cases hc : x.c.sub with
  | box b =>
    simp only [hc] at h ⊢
    generalize f ⟨b, x.h, s⟩ = q at h ⊢
    obtain ⟨y, q⟩ := q
    cases q with
    | ok => exact h
    | more => exact h
    | err e => exact (full_fail_not_passes h p).elim
    | ub => simp only [Prod.mk.injEq] at h; rw [← h.2] at p; simp [Res.passes] at p
  | zeroed => simp only [hc, Prod.mk.injEq] at h; rw [← h.2] at p; simp [Res.passes] at p
  | input _ => simp only [hc, Prod.mk.injEq] at h; rw [← h.2] at p; simp [Res.passes] at p

theorem boxPart_more {x x1 : FullSt} {f : BoxSt Acc → BoxSt Acc × Res BoxErr}
    (h : x.boxPart f = (x1, .more)) :
    ∃ b y, f ⟨b, x.h, x.s⟩ = (y, .more) ∧ x1.s = y.s := by
  unfold FullSt.boxPart at h
  split at h
  · simp [FullSt.fail] at h
  cases hc : x.c.sub with
  | box b =>
    simp only [hc] at h
    refine ⟨b, ?_⟩
    generalize f ⟨b, x.h, x.s⟩ = q at h ⊢
    obtain ⟨y, q⟩ := q
    cases q with
    | ok =>
      simp only at h
      split at h
      · unfold FullSt.outputFinished at h
        simp only at h
        split at h <;> simp at h
      · simp at h
    | more =>
      simp only [Prod.mk.injEq, and_true] at h
      exact ⟨y, rfl, by rw [← h]⟩
    | err e => simp [FullSt.fail] at h
    | ub => simp at h
  | zeroed => simp [hc] at h
  | input _ => simp [hc] at h

theorem addOutputTree_join {env : Env} {p p1 p2 : P2pk} {a b : Bytes}
    (h1 : p.addOutputTree env a = .ok p1) (h2 : p1.addOutputTree env b = .ok p2) :
    p.addOutputTree env (a ++ b) = .ok p2 := by
  unfold P2pk.addOutputTree at h1 h2 ⊢
  obtain ⟨hs, t, o, x1, r1, o1, hu, ho, hf, pp1, hg, rfl⟩ := withOut_cases h1
  obtain ⟨hs2, t2, o2, x2, r2, o3, hu2, ho2, hf2, pp2, hg2, rfl⟩ := withOut_cases h2
  simp only [P2pkU.transaction.injEq] at hu2
  subst hu2
  simp only [Option.some.injEq] at ho2
  subst ho2
  -- the first piece is not the last
  have hm : r1 = .more := by
    refine (boxPart_join (k := fun y => (fun z : BoxSt Acc => BoxSt.addTree (accCbs env)
        { z with s := ⟨x1.s.a, o1⟩ } b) (y.addTree (accCbs env) a).1) ?_ hf pp1
      (boxPart_state hf2 pp2) pp2).1
    intro y y1 y2 q1 q2 b1 b2 b3 b4 _ _
    rcases addTree_ok_leaves b1 b2 with h | h
    · exact ⟨h.1, by rw [b1]; exact b3⟩
    · exact (addTree_fails (by exact h) b3 b4).elim
  subst hm
  obtain ⟨c, y, hy, hys⟩ := boxPart_more hf
  have hlen : x1.s = ⟨p.amounts, o⟩ ∧ maxChunk ≤ a.length := by
    rcases addTree_ok_leaves hy rfl with h | h
    · exact ⟨hys.trans h.2.1, h.2.2⟩
    · exfalso
      unfold BoxSt.addTree at hy
      split at hy
      · simp [BoxSt.fail] at hy
      split at hy
      · simp [BoxSt.fail] at hy
      split at hy
      · simp [BoxSt.fail] at hy
      simp only at hy
      split at hy
      · have := (treeAdded_leaves hy rfl).1
        simp at this
      · simp only [Prod.mk.injEq, and_true] at hy
        rw [← hy] at h
        simp_all
  obtain ⟨hxs, hlen⟩ := hlen
  rw [hxs] at hg
  simp only [reduceCtorEq, decide_false] at hg
  obtain ⟨hts, bs, hb, e1⟩ := addTreeChunk_open hg
  have ht1 : o1.treeSet = false := by rw [e1]; exact hts
  have hbf : o1.boxFinished = o.boxFinished := by rw [e1]
  have key := addBoxTree_reOut (env := env) ht1 x1 (by rw [hxs]; exact hts) b
  have key2 := addBoxTree_reOut (env := env) hts x1 (by rw [hxs]; exact hts) b
  have er1 : ({ x1 with s := reOut o1 x1.s } : FullSt) = ⟨x1.c, x1.h, ⟨x1.s.a, o1⟩⟩ := by
    simp [reOut, hxs, ← hbf]
  have er2 : ({ x1 with s := reOut o x1.s } : FullSt) = x1 := by
    obtain ⟨c1, h1, s1⟩ := x1
    simp only at hxs
    simp [reOut, hxs]
  rw [er1] at key
  rw [er2] at key2
  simp only at hf2
  rw [hf2] at key
  generalize hz : x1.addBoxTree env b = q at key key2
  obtain ⟨z, q⟩ := q
  simp only [Prod.mk.injEq] at key key2
  obtain ⟨rfl, rfl⟩ := key
  have hzo : z.s.o = { o with boxFinished := z.s.o.boxFinished } := by
    have := congrArg (fun w : FullSt => w.s.o) key2.1
    simpa [reOut] using this
  obtain ⟨_, hk⟩ := boxPart_join (k := fun y => y.addTree (accCbs env) (a ++ b))
    (fun y y1 y2 q1 q2 a1 a2 a3 a4 _ _ => by
      obtain ⟨c1, _, _, c2⟩ := addTree_join a1 a2 a3 a4
      exact ⟨c1, c2⟩) hf pp1 hz pp2
  have hg3 := addTreeChunk_join hlen hg (by simpa [reOut] using hg2)
  rw [← hzo] at hg3
  rw [withOut_intro hs hu ho hk pp2 hg3]
  simp only [P2pk.checkFinished] at hs2 ⊢
  rw [hs2, hs]
  rfl

/-- Subcommands whose data may be sent in pieces. -/
theorem signOp_join {env : Env} {key : Bytes} {p p1 p2 : P2pk} {sub : UInt8} {a b : Bytes}
    (hc : sub = 0x11 ∨ sub = 0x13 ∨ sub = 0x14 ∨ sub = 0x16 ∨ sub = 0x19 ∨ sub = 0x1A)
    (h1 : signOp env key p sub a = .ok p1) (h2 : signOp env key p1 sub b = .ok p2) :
    signOp env key p sub (a ++ b) = .ok p2 := by
  rcases hc with rfl | rfl | rfl | rfl | rfl | rfl
  · replace h1 : p.addTokens a = .ok p1 := h1
    replace h2 : p1.addTokens b = .ok p2 := h2
    show p.addTokens (a ++ b) = .ok p2
    unfold P2pk.addTokens at h1 h2 ⊢
    split at h1
    · simp at h1
    split at h2
    · simp at h2
    rename_i hs _
    rw [if_neg hs]
    exact withTx_join (fun _ _ _ e _ => fullAddTokens_out e)
      (fun _ _ _ _ _ e1 e2 e3 e4 => fullAddTokens_join e1 e2 e3 e4) h1 h2
  · replace h1 : p.addExtension a = .ok p1 := h1
    replace h2 : p1.addExtension b = .ok p2 := h2
    show p.addExtension (a ++ b) = .ok p2
    unfold P2pk.addExtension at h1 h2 ⊢
    split at h1
    · simp at h1
    split at h2
    · simp at h2
    rename_i hs _
    rw [if_neg hs]
    exact withTx_join (fun _ _ _ e _ => fullAddExtension_out e)
      (fun _ _ _ _ _ e1 e2 e3 e4 => fullAddExtension_join e1 e2 e3 e4) h1 h2
  · replace h1 : p.addDataInputs a = .ok p1 := h1
    replace h2 : p1.addDataInputs b = .ok p2 := h2
    show p.addDataInputs (a ++ b) = .ok p2
    unfold P2pk.addDataInputs at h1 h2 ⊢
    split at h1
    · simp at h1
    split at h2
    · simp at h2
    rename_i hs _
    rw [if_neg hs]
    exact withTx_join (fun _ _ _ e _ => fullAddDataInputs_out e)
      (fun _ _ _ _ _ e1 e2 e3 e4 => fullAddDataInputs_join e1 e2 e3 e4) h1 h2
  · exact addOutputTree_join h1 h2
  · exact withOut_join (f := fun x => x.addBoxTokens env a) (g := fun x => x.addBoxTokens env b)
      (k := fun x => x.addBoxTokens env (a ++ b))
      (fun _ _ _ _ _ e1 e2 e3 e4 => fullAddBoxTokens_join e1 e2 e3 e4) h1 h2
  · exact withOut_join (f := fun x => x.addBoxRegisters env a) (g := fun x => x.addBoxRegisters env b)
      (k := fun x => x.addBoxRegisters env (a ++ b))
      (fun _ _ _ _ _ e1 e2 e3 e4 => fullAddBoxRegisters_join e1 e2 e3 e4) h1 h2

end Ergo
