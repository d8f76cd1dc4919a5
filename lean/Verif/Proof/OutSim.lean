import Verif.Proof.BoxSim
import Verif.Proof.Amt
import Verif.Model.Full
/-!
# The output info follows the description of the output
-/
namespace Ergo
open Spec

/-! ## Token amounts by table position -/

/-- The amounts by table position are the sums `f` by token id. -/
structure TokRel (table : List Bytes) (tokens : List UInt64) (f : Bytes → Nat) : Prop where
  len : tokens.length = 20
  amt : ∀ id i, tableFind table id = some i → (tokens.getD i 0).toNat = f id
  zero : ∀ i, (∀ id, tableFind table id ≠ some i) → tokens.getD i 0 = 0
  out0 : ∀ id, id ∉ table → f id = 0

theorem getD_replicate {n i : Nat} : (List.replicate n (0 : UInt64)).getD i 0 = 0 := by
  rw [List.getD_eq_getElem?_getD, List.getElem?_replicate]
  split <;> rfl

theorem TokRel.init (table : List Bytes) :
    TokRel table (List.replicate tokenMax 0) (fun _ => 0) where
  len := by simp [tokenMax]
  amt := by intro id i _; rw [getD_replicate]; rfl
  zero := by intro i _; exact getD_replicate
  out0 := by intro _ _; rfl

theorem getU_set_eq {l : List UInt64} {i : Nat} {v : UInt64} (h : i < l.length) :
    (l.set i v).getD i 0 = v := by
  simp [List.getD_eq_getElem?_getD, h]

theorem getU_set_ne {l : List UInt64} {i j : Nat} {v : UInt64} (h : i ≠ j) :
    (l.set i v).getD j 0 = l.getD j 0 := by
  simp [List.getD_eq_getElem?_getD, List.getElem?_set_ne h]

theorem addToken_rel {table : List Bytes} {o o' : OutInfo} {f : Bytes → Nat} {id : Bytes}
    {v : UInt64} {r : Res BoxErr} (hl : table.length ≤ 20) (hT : TokRel table o.tokens f)
    (h : o.addToken table id v = (o', r)) (hp : r.passes) :
    r = .ok ∧ o' = { o with tokens := o'.tokens } ∧ f id = 0 ∧
      TokRel table o'.tokens (fun j => f j + if j = id then v.toNat else 0) := by
  unfold OutInfo.addToken at h
  split at h
  · simp only [Prod.mk.injEq] at h
    obtain ⟨_, rfl⟩ := h
    simp [Res.passes] at hp
  · rename_i i hf
    split at h
    · simp only [Prod.mk.injEq] at h
      obtain ⟨_, rfl⟩ := h
      simp [Res.passes] at hp
    · rename_i h0
      simp only [ne_eq, Decidable.not_not] at h0
      simp only [Prod.mk.injEq] at h
      obtain ⟨rfl, rfl⟩ := h
      have hi : i < o.tokens.length := by
        have := tableFind_lt hf; rw [hT.len]; omega
      refine ⟨rfl, rfl, ?_, by simp [hT.len], ?_, ?_, ?_⟩
      · rw [← hT.amt _ _ hf, h0]; rfl
      · intro id' j hj
        by_cases hid : id' = id
        · subst hid
          rw [hf] at hj
          simp only [Option.some.injEq] at hj
          subst hj
          have h1 := hT.amt _ _ hf
          rw [h0] at h1
          rw [getU_set_eq hi, if_pos rfl, ← h1]
          simp
        · have hne : i ≠ j := by
            rintro rfl
            exact hid (tableFind_inj hj hf)
          rw [getU_set_ne hne, if_neg hid, hT.amt _ _ hj]; rfl
      · intro j hj
        have hne : i ≠ j := by rintro rfl; exact hj id hf
        rw [getU_set_ne hne]
        exact hT.zero j hj
      · intro id' hid'
        have hne : id' ≠ id := by
          rintro rfl
          rw [tableFind_none.2 hid'] at hf
          simp at hf
        simp only [if_neg hne, hT.out0 id' hid']

theorem addToken_noub (o : OutInfo) (table : List Bytes) (id : Bytes) (v : UInt64) :
    (o.addToken table id v).2 ≠ .ub := by
  unfold OutInfo.addToken
  split
  · simp
  · split <;> simp

theorem accToken_noub (env : Env) (ty : BoxType) (id : Bytes) (v : UInt64) (s : Acc) :
    ((accCbs env).onToken ty id v s).2 ≠ .ub := by
  have h1 := addToken_noub s.o s.a.table id v
  have h2 := addOutputToken_noub s.a id v
  simp only [accCbs]
  split
  · exact h2
  · rename_i e h; exact h1

theorem tokRefs_cons (base : List Bytes) (t : Nat × Nat) (l : List (Nat × Nat)) (id : Bytes) :
    tokRefs base (t :: l) id = (if base[t.1]? = some id then t.2 else 0) + tokRefs base l id := by
  unfold tokRefs
  by_cases h : base[t.1]? = some id <;> simp [h]

theorem tokRefs_append (base : List Bytes) (l m : List (Nat × Nat)) (id : Bytes) :
    tokRefs base (l ++ m) id = tokRefs base l id + tokRefs base m id := by
  simp [tokRefs]

theorem prefix_getElem? {base table : List Bytes} (h : base <+: table) {i : Nat}
    (hi : i < base.length) : base[i]? = some (tableEntry table i) := by
  obtain ⟨e, rfl⟩ := h
  simp [tableEntry, List.getD_eq_getElem?_getD, List.getElem?_append_left hi,
    List.getElem?_eq_getElem hi]

/-- Every entry of the list finds its token without amount so far (`f` before the list). -/
def FreshToks (base : List Bytes) : (Bytes → Nat) → List (Nat × Nat) → Prop
  | _, [] => True
  | f, t :: l => (∀ id, base[t.1]? = some id → f id = 0) ∧
      FreshToks base (fun j => f j + tokRefs base [t] j) l

theorem FreshToks.append {base : List Bytes} : ∀ {l m : List (Nat × Nat)} {f : Bytes → Nat},
    FreshToks base f l → FreshToks base (fun j => f j + tokRefs base l j) m →
    FreshToks base f (l ++ m)
  | [], m, f, _, h => by simpa [tokRefs] using h
  | t :: l, m, f, h, h' => by
    refine ⟨h.1, h.2.append ?_⟩
    have e : (fun j => f j + tokRefs base [t] j + tokRefs base l j) =
        fun j => f j + tokRefs base (t :: l) j := by
      funext j
      rw [tokRefs_cons base t l, tokRefs_cons base t []]
      simp [tokRefs]; omega
    rw [e]; exact h'

/-- The token callback on a list of entries: both amounts grow by the references. -/
theorem foldToks_acc {env : Env} {ty : BoxType} {dn : UInt8} {table base : List Bytes}
    {vin vch vfee : Nat} {tin : Bytes → Nat} (hdn : dn.toNat = base.length) :
    ∀ (bs : List Bytes), (∀ b ∈ bs, b.length = 12 ∧ ItemOk (some (dn, table)) b) →
    ∀ (s s' : Acc) (tout f : Bytes → Nat),
      foldToks (accCbs env) ty (bs.map (itemOf (some (dn, table)))) s = some s' →
      s.a.table = table → AmtRel s.a base vin vch vfee tin tout → TokRel table s.o.tokens f →
      s'.a.table = table ∧
      AmtRel s'.a base vin vch vfee tin (fun j => tout j + tokRefs base (bs.map tok12) j) ∧
      s'.o = { s.o with tokens := s'.o.tokens } ∧
      TokRel table s'.o.tokens (fun j => f j + tokRefs base (bs.map tok12) j) ∧
      FreshToks base f (bs.map tok12) := by
  intro bs
  induction bs with
  | nil =>
    intro _ s s' tout f h ht hA hT
    simp only [List.map_nil, foldToks, Option.some.injEq] at h
    subst h
    simpa [tokRefs, FreshToks] using ⟨ht, hA, hT⟩
  | cons b bs ih =>
    intro hb s s' tout f h ht hA hT
    obtain ⟨hlen, hok⟩ := hb b (by simp)
    simp only [List.map_cons, foldToks] at h
    split at h
    · rename_i hp
      have hix : be (b.take 4) < base.length := by rw [← hdn]; exact hok
      have hent : base[(tok12 b).1]? = some (itemOf (some (dn, table)) b).id :=
        prefix_getElem? (ht ▸ hA.pre) hix
      have hamt : (itemOf (some (dn, table)) b).amt.toNat = (tok12 b).2 :=
        be_ofNat64 (by simp [hlen])
      generalize hi : itemOf (some (dn, table)) b = i at *
      obtain ⟨s1, q, hs1⟩ : ∃ s1 q, (accCbs env).onToken ty i.id i.amt s = (s1, q) := ⟨_, _, rfl⟩
      rw [hs1] at h hp
      simp only at h hp
      simp only [accCbs] at hs1
      obtain ⟨o1, r1, hr1⟩ : ∃ o1 r1, s.o.addToken s.a.table i.id i.amt = (o1, r1) := ⟨_, _, rfl⟩
      rw [hr1] at hs1
      simp only at hs1
      have hr1p : r1 = .ok := by
        have hpp : r1.passes := by
          cases r1 with
          | ok => rfl
          | more => rfl
          | err e => simp only [Prod.mk.injEq] at hs1; rw [← hs1.2] at hp; simp [Res.passes] at hp
          | ub => simp only [Prod.mk.injEq] at hs1; rw [← hs1.2] at hp; simp [Res.passes] at hp
        exact (addToken_rel (by rw [← ht]; exact hA.tlen) hT (ht ▸ hr1) hpp).1
      subst hr1p
      obtain ⟨_, ho1, hz1, hT1⟩ := addToken_rel (by rw [← ht]; exact hA.tlen) hT (ht ▸ hr1) rfl
      simp only [Prod.mk.injEq] at hs1
      obtain ⟨rfl, rfl⟩ := hs1
      obtain ⟨a1, q1, hq1⟩ : ∃ a1 q1, s.a.addOutputToken i.id i.amt = (a1, q1) := ⟨_, _, rfl⟩
      rw [hq1] at h hp
      simp only at h hp
      obtain ⟨_, ht1, hA1⟩ := hA.addOutputToken hq1 hp
      obtain ⟨g1, g2, g3, g4, g5⟩ := ih (fun c hc => hb c (by simp [hc])) _ _ _ _ h
        (by rw [← ht]; exact ht1) hA1 hT1
      have e : ∀ (g : Bytes → Nat), (fun j => (g j + if j = i.id then i.amt.toNat else 0) +
          tokRefs base (bs.map tok12) j) = fun j => g j + tokRefs base ((b :: bs).map tok12) j := by
        intro g
        funext j
        rw [List.map_cons, tokRefs_cons, hent, hamt]
        by_cases hj : j = i.id
        · subst hj; simp; omega
        · have : ¬ i.id = j := fun e => hj e.symm
          simp [hj, this]
      rw [e] at g2 g4
      refine ⟨g1, g2, ?_, g4, ?_, ?_⟩
      · rw [g3]
        simp only
        rw [ho1]
      · intro id hid
        rw [hent, Option.some.injEq] at hid
        rw [← hid]; exact hz1
      · have e' : (fun j => f j + if j = i.id then i.amt.toNat else 0) =
            fun j => f j + tokRefs base [tok12 b] j := by
          funext j
          rw [tokRefs_cons, hent, hamt]
          by_cases hj : j = i.id
          · subst hj; simp [tokRefs]
          · have : ¬ i.id = j := fun e => hj e.symm
            simp [hj, this, tokRefs]
        rw [← e']; exact g5
    · simp at h

/-! ## The script of the output -/

/-- Type and data kept for a raw script: what the two address forms contain, else the hash (or the
bytes hashed so far) of the script. -/
def rawInfo (env : Env) (fin : Bool) (bs : Bytes) : OutType × OutData :=
  match (if bs.length = 36 then treeParseP2pk bs else none) with
  | some pk => (.address, .publicKey pk)
  | none =>
    match (if bs.length = 44 then treeParseP2sh bs else none) with
    | some h => (.scriptHash, .treeHash h)
    | none => (.script, if fin then .treeHash (env.blake bs) else .hashing bs)

/-- The output info matches the script of the description. -/
def ScriptRel (env : Env) (oi : OutInfo) (treeSize : Nat) (fin : Bool) : Option Script → Prop
  | none => oi.type = .unknown ∧ oi.treeSet = false
  | some .fee => oi.type = .minersFee ∧ oi.treeSet = true
  | some (.change p) => oi.type = .bip32 ∧ oi.treeSet = true ∧ oi.data = .path p
  | some (.raw bs) =>
    if bs.length = treeSize then
      oi.treeSet = true ∧ oi.type = (rawInfo env fin bs).1 ∧ oi.data = (rawInfo env fin bs).2
    else oi.type = .script ∧ oi.treeSet = false ∧ oi.data = .hashing bs ∧ 255 ≤ bs.length

/-- The output info matches the description of the output. -/
structure OutRel (env : Env) (table base : List Bytes) (oi : OutInfo) (o : BoxDesc Nat) : Prop where
  value : oi.value.toNat = o.value
  toks : TokRel table oi.tokens (tokRefs base o.tokens)
  fin : oi.boxFinished = o.complete
  script : ScriptRel env oi o.treeSize o.complete o.script
  uniq : FreshToks base (fun _ => 0) o.tokens

variable {env : Env} {table base : List Bytes} {oi oi' : OutInfo} {o : BoxDesc Nat}

theorem OutRel.treeSet (h : OutRel env table base oi o) : oi.treeSet = o.scriptDone := by
  have hs := h.script
  unfold BoxDesc.scriptDone
  cases hsc : o.script with
  | none => rw [hsc] at hs; exact hs.2
  | some s =>
    rw [hsc] at hs
    cases s with
    | fee => exact hs.2
    | change p => exact hs.2.1
    | raw bs =>
      simp only [ScriptRel] at hs
      split at hs
      · rename_i he; rw [hs.1]; simp [he]
      · rename_i he; rw [hs.2.1]; simp [he]

theorem complete_done (h : o.complete) : o.scriptDone := by
  simp only [BoxDesc.complete, Bool.and_eq_true] at h
  exact h.1.1

theorem OutRel.finished (h : OutRel env table base oi o) : oi.finished = o.complete := by
  unfold OutInfo.finished
  rw [h.treeSet, h.fin]
  cases hc : o.complete with
  | false => simp
  | true => simp [complete_done hc]

theorem rawInfo_long (env : Env) (fin : Bool) {bs : Bytes} (h : 255 ≤ bs.length) :
    rawInfo env fin bs = (.script, if fin then .treeHash (env.blake bs) else .hashing bs) := by
  unfold rawInfo
  rw [if_neg (by omega), if_neg (by omega)]

/-- `maybe_finished` on the info of a script received before the box became complete. -/
theorem maybeFinished_set {ts : Nat} {sc : Option Script}
    (hs : ScriptRel env oi ts false sc) (hts : oi.treeSet = true) (hb : oi.boxFinished = true) :
    ∃ q, oi.maybeFinished env = some q ∧ q = { oi with data := q.data } ∧
      ScriptRel env q ts true sc := by
  unfold OutInfo.maybeFinished
  rw [if_pos (by simp [OutInfo.finished, hts, hb])]
  cases sc with
  | none => rw [hs.2] at hts; simp at hts
  | some s =>
    cases s with
    | fee => rw [if_neg (by rw [hs.1]; decide)]; exact ⟨_, rfl, rfl, hs⟩
    | change p => rw [if_neg (by rw [hs.1]; decide)]; exact ⟨_, rfl, rfl, hs⟩
    | raw bs =>
      simp only [ScriptRel] at hs
      split at hs
      · rename_i he
        obtain ⟨_, h1, h2⟩ := hs
        unfold rawInfo at h1 h2
        split at h1
        · rename_i pk hpk
          rw [hpk] at h2
          simp only at h1 h2
          rw [if_neg (by rw [h1]; decide)]
          refine ⟨_, rfl, rfl, ?_⟩
          simp only [ScriptRel, if_pos he, rawInfo, hpk]
          exact ⟨hts, h1, h2⟩
        · rename_i hpk
          rw [hpk] at h2
          simp only at h2
          split at h1
          · rename_i x hx
            rw [hx] at h2
            simp only at h1 h2
            rw [if_neg (by rw [h1]; decide)]
            refine ⟨_, rfl, rfl, ?_⟩
            simp only [ScriptRel, if_pos he, rawInfo, hpk, hx]
            exact ⟨hts, h1, h2⟩
          · rename_i hx
            rw [hx] at h2
            simp only [Bool.false_eq_true, if_false] at h1 h2
            rw [if_pos h1, h2]
            refine ⟨_, rfl, rfl, ?_⟩
            simp only [ScriptRel, if_pos he, rawInfo, hpk, hx]
            exact ⟨hts, h1, rfl⟩
      · rw [hs.2.1] at hts; simp at hts

theorem maybeFinished_unset (h : oi.finished = false) : oi.maybeFinished env = some oi := by
  unfold OutInfo.maybeFinished
  rw [if_neg (by simp [h])]

/-- Completion of a box whose script was already there. -/
theorem setBoxFinished_set {ts : Nat} {sc : Option Script}
    (hs : ScriptRel env oi ts false sc) (hts : oi.treeSet = true) :
    ∃ q, oi.setBoxFinished env = (q, .ok) ∧ q = { oi with boxFinished := true, data := q.data } ∧
      ScriptRel env q ts true sc := by
  have hs' : ScriptRel env { oi with boxFinished := true } ts false sc := by
    cases sc with
    | none => exact hs
    | some s =>
      cases s <;> exact hs
  obtain ⟨q, h1, h2, h3⟩ := maybeFinished_set hs' hts rfl
  refine ⟨q, ?_, ?_, h3⟩
  · unfold OutInfo.setBoxFinished
    rw [h1]
  · rw [h2]

/-- Completion of a box before its script is recorded. -/
theorem setBoxFinished_unset (hts : oi.treeSet = false) :
    oi.setBoxFinished env = ({ oi with boxFinished := true }, .ok) := by
  unfold OutInfo.setBoxFinished
  rw [maybeFinished_unset (by simp [OutInfo.finished, hts])]

theorem finEff_set {ty : BoxType} {s1 s' : Acc} (hv : s1.o.value.toNat = o.value)
    (hT : TokRel table s1.o.tokens (tokRefs base o.tokens)) (hf : s1.o.boxFinished = false)
    (hts : s1.o.treeSet = true) (hs : ScriptRel env s1.o o.treeSize false o.script)
    (hu : FreshToks base (fun _ => 0) o.tokens) (he : finEff (accCbs env) ty o.complete s1 s') :
    s'.a = s1.a ∧ OutRel env table base s'.o o := by
  unfold finEff at he
  cases hc : o.complete with
  | true =>
    rw [hc, if_pos rfl] at he
    obtain ⟨r, he, _⟩ := he
    obtain ⟨q, h1, h2, h3⟩ := setBoxFinished_set hs hts
    simp only [accCbs, h1, Prod.mk.injEq] at he
    obtain ⟨rfl, rfl⟩ := he
    refine ⟨rfl, ?_, ?_, ?_, ?_, hu⟩
    · simp only; rw [h2]; exact hv
    · simp only; rw [h2]; exact hT
    · simp only; rw [h2, hc]
    · rw [hc]; exact h3
  | false =>
    rw [hc, if_neg (by simp)] at he
    subst he
    exact ⟨rfl, hv, hT, by rw [hf, hc], by rw [hc]; exact hs, hu⟩

theorem finEff_unset {ty : BoxType} {fin : Bool} {s1 s' : Acc} (hts : s1.o.treeSet = false)
    (hb : s1.o.boxFinished = false) (he : finEff (accCbs env) ty fin s1 s') :
    s'.a = s1.a ∧ s'.o = { s1.o with boxFinished := fin } := by
  unfold finEff at he
  cases fin with
  | true =>
    rw [if_pos rfl] at he
    obtain ⟨r, he, _⟩ := he
    simp only [accCbs, setBoxFinished_unset hts, Prod.mk.injEq] at he
    obtain ⟨rfl, rfl⟩ := he
    exact ⟨rfl, rfl⟩
  | false =>
    rw [if_neg (by simp)] at he
    subst he
    refine ⟨rfl, ?_⟩
    rw [← hb]

/-- A whole script set by one command. -/
theorem OutRel.setWhole (h : OutRel env table base oi o) (hno : o.script = none)
    {q : OutInfo} {s : Script} {fin : Bool} (hraw : ∀ b, s ≠ .raw b)
    (hq : q = { oi with boxFinished := fin, treeSet := true, type := q.type, data := q.data })
    (hfin : fin = BoxDesc.complete { o with script := some s })
    (hs : ScriptRel env q o.treeSize fin (some s)) :
    q.maybeFinished env = some q ∧ OutRel env table base q { o with script := some s } := by
  constructor
  · unfold OutInfo.maybeFinished
    split
    · have : q.type ≠ .script := by
        cases s with
        | fee => rw [hs.1]; decide
        | change p => rw [hs.1]; decide
        | raw b => exact absurd rfl (hraw b)
      rw [if_neg this]
    · rfl
  · refine ⟨?_, ?_, ?_, ?_, h.uniq⟩
    · rw [hq]; exact h.value
    · rw [hq]; exact h.toks
    · rw [hq]; exact hfin
    · rw [← hfin]; exact hs

theorem setFee_rel (h : OutRel env table base oi o) (hd : o.scriptDone = false) (fin : Bool)
    (hfin : o.script = none → fin = BoxDesc.complete { o with script := some .fee }) :
    (∃ q, OutInfo.setFee env { oi with boxFinished := fin } = .ok q ∧ o.script = none ∧
      OutRel env table base q { o with script := some .fee }) ∨
    OutInfo.setFee env { oi with boxFinished := fin } = .badState := by
  unfold OutInfo.setFee
  split
  · right; rfl
  · rename_i hu
    simp only [ne_eq, Decidable.not_not] at hu
    left
    have hno : o.script = none := by
      have hs := h.script
      unfold BoxDesc.scriptDone at hd
      cases hsc : o.script with
      | none => rfl
      | some s =>
        rw [hsc] at hs hd
        cases s with
        | fee => simp at hd
        | change p => simp at hd
        | raw b =>
          simp only [decide_eq_false_iff_not] at hd
          simp only [ScriptRel, if_neg hd] at hs
          rw [hs.1] at hu; simp at hu
    obtain ⟨e, hR⟩ := h.setWhole hno (s := .fee) (fin := fin) (by simp)
      (q := { oi with boxFinished := fin, type := .minersFee, treeSet := true }) rfl (hfin hno)
      ⟨rfl, rfl⟩
    refine ⟨_, ?_, hno, hR⟩
    rw [e]; rfl

theorem setBip32_rel (h : OutRel env table base oi o) (hd : o.scriptDone = false) (fin : Bool)
    (p : List UInt32)
    (hfin : o.script = none → fin = BoxDesc.complete { o with script := some (.change p) }) :
    (∃ q, OutInfo.setBip32 env { oi with boxFinished := fin } p = .ok q ∧ o.script = none ∧
      OutRel env table base q { o with script := some (.change p) }) ∨
    OutInfo.setBip32 env { oi with boxFinished := fin } p = .badState := by
  unfold OutInfo.setBip32
  split
  · right; rfl
  · rename_i hu
    simp only [ne_eq, Decidable.not_not] at hu
    left
    have hno : o.script = none := by
      have hs := h.script
      unfold BoxDesc.scriptDone at hd
      cases hsc : o.script with
      | none => rfl
      | some s =>
        rw [hsc] at hs hd
        cases s with
        | fee => simp at hd
        | change p => simp at hd
        | raw b =>
          simp only [decide_eq_false_iff_not] at hd
          simp only [ScriptRel, if_neg hd] at hs
          rw [hs.1] at hu; simp at hu
    obtain ⟨e, hR⟩ := h.setWhole hno (s := .change p) (fin := fin) (by simp)
      (q := { oi with boxFinished := fin, type := .bip32, treeSet := true, data := .path p }) rfl
      (hfin hno) ⟨rfl, rfl, rfl⟩
    refine ⟨_, ?_, hno, hR⟩
    rw [e]; rfl

theorem addTree_fields (o : BoxDesc Nat) (c : Bytes) :
    (o.addTree c).value = o.value ∧ (o.addTree c).treeSize = o.treeSize ∧
    (o.addTree c).tokens = o.tokens ∧ (o.addTree c).regs = o.regs ∧
    (o.addTree c).nTokens = o.nTokens ∧ (o.addTree c).regsSize = o.regsSize := by
  unfold BoxDesc.addTree
  split <;> simp

/-- More bytes of the script. -/
theorem addTreeChunk_rel (h : OutRel env table base oi o) (hd : o.scriptDone = false) {c : Bytes}
    (hsmall : (o.addTree c).scriptDone = false → 255 ≤ c.length) :
    ∃ q, OutInfo.addTreeChunk env { oi with boxFinished := (o.addTree c).complete } c
        (o.addTree c).scriptDone = .ok q ∧ OutRel env table base q (o.addTree c) := by
  have hts := h.treeSet
  rw [hd] at hts
  have hs := h.script
  have hf := addTree_fields o c
  have hdone : (o.addTree c).scriptDone = false → (o.addTree c).complete = false := by
    intro h; simp [BoxDesc.complete, h]
  -- the recorded bytes and the general conclusion
  have fin : ∀ (q : OutInfo) (bs : Bytes), (o.addTree c).script = some (.raw bs) →
      q = { oi with
        boxFinished := (o.addTree c).complete
        treeSet := (o.addTree c).scriptDone
        type := q.type
        data := q.data } →
      (if (o.addTree c).scriptDone then
        q.type = (rawInfo env false bs).1 ∧ q.data = (rawInfo env false bs).2
       else q.type = .script ∧ q.data = .hashing bs ∧ 255 ≤ bs.length) →
      ∃ q', q.maybeFinished env = some q' ∧ OutRel env table base q' (o.addTree c) := by
    intro q bs hsc hq hty
    have hsd : (o.addTree c).scriptDone = decide (bs.length = (o.addTree c).treeSize) := by
      rw [BoxDesc.scriptDone, hsc]
    have hR0 : ScriptRel env q (o.addTree c).treeSize false (some (.raw bs)) := by
      simp only [ScriptRel]
      by_cases hl : bs.length = (o.addTree c).treeSize
      · rw [if_pos hl]
        simp only [hsd, hl, decide_true, if_true] at hty
        refine ⟨?_, hty⟩
        rw [hq]; simp [hsd, hl]
      · rw [if_neg hl]
        simp only [hsd, hl, decide_false, Bool.false_eq_true, if_false] at hty
        refine ⟨hty.1, ?_, hty.2⟩
        rw [hq]; simp [hsd, hl]
    cases hc : (o.addTree c).complete with
    | true =>
      have hsd' := complete_done hc
      obtain ⟨q', h1, h2, h3⟩ := maybeFinished_set hR0 (by rw [hq]; exact hsd')
        (by rw [hq]; exact hc)
      refine ⟨q', h1, ?_, ?_, ?_, ?_, by rw [hf.2.2.1]; exact h.uniq⟩
      · rw [h2, hq, hf.1]; exact h.value
      · rw [h2, hq, hf.2.2.1]; exact h.toks
      · rw [h2, hq]
      · rw [hc, hsc]; exact h3
    | false =>
      refine ⟨q, maybeFinished_unset ?_, ?_, ?_, ?_, ?_, by rw [hf.2.2.1]; exact h.uniq⟩
      · rw [hq]; simp [OutInfo.finished, hc]
      · rw [hq, hf.1]; exact h.value
      · rw [hq, hf.2.2.1]; exact h.toks
      · rw [hq]
      · rw [hc, hsc]; exact hR0
  unfold OutInfo.addTreeChunk
  cases hsc : o.script with
  | none =>
    rw [hsc] at hs
    have hsc' : (o.addTree c).script = some (.raw c) := by simp [BoxDesc.addTree, hsc]
    rw [if_neg (by simp [hs.1]), if_neg (by simp [hs.2])]
    simp only [hs.1, if_true]
    cases hsd : (o.addTree c).scriptDone with
    | false =>
      have h255 := hsmall hsd
      have hcl : ∀ u : OutInfo, u.classify c false = { u with type := .script, data := .hashing [] } := by
        intro u; simp [OutInfo.classify]
      rw [hcl]
      simp only [if_true]
      obtain ⟨q', e, hR⟩ := fin { oi with
            type := .script
            boxFinished := (o.addTree c).complete
            data := .hashing ([] ++ c)
            treeSet := false } c hsc' (by rw [hsd]) (by rw [hsd]; simp [h255])
      refine ⟨q', ?_, hR⟩
      simp only [hs.2, Bool.or_false]
      rw [e]; rfl
    | true =>
      obtain ⟨u, hu⟩ : ∃ u, OutInfo.classify
          { oi with boxFinished := (o.addTree c).complete, type := .unknown } c true = u := ⟨_, rfl⟩
      have hu' := hu
      unfold OutInfo.classify at hu
      simp only [and_true] at hu
      rw [hu']
      split at hu
      · rename_i pk hpk
        subst hu
        simp only [reduceCtorEq, if_false]
        obtain ⟨q', e, hR⟩ := fin { oi with
            boxFinished := (o.addTree c).complete
            type := .address
            treeSet := true
            data := .publicKey pk } c hsc' (by rw [hsd])
          (by rw [hsd]; simp [rawInfo, hpk])
        exact ⟨q', by rw [e]; rfl, hR⟩
      · rename_i hpk
        split at hu
        · rename_i x hx
          subst hu
          simp only [reduceCtorEq, if_false]
          obtain ⟨q', e, hR⟩ := fin { oi with
            boxFinished := (o.addTree c).complete
            type := .scriptHash
            treeSet := true
            data := .treeHash x } c hsc' (by rw [hsd])
            (by rw [hsd]; simp [rawInfo, hpk, hx])
          exact ⟨q', by rw [e]; rfl, hR⟩
        · rename_i hx
          subst hu
          simp only [if_true]
          obtain ⟨q', e, hR⟩ := fin { oi with
            boxFinished := (o.addTree c).complete
            type := .script
            treeSet := true
            data := .hashing ([] ++ c) } c hsc' (by rw [hsd])
            (by rw [hsd]; simp [rawInfo, hpk, hx])
          refine ⟨q', ?_, hR⟩
          simp only [Bool.or_true]
          rw [e]; rfl
  | some s =>
    rw [hsc] at hs
    unfold BoxDesc.scriptDone at hd
    rw [hsc] at hd
    cases s with
    | fee => simp at hd
    | change p => simp at hd
    | raw bs =>
      simp only [decide_eq_false_iff_not] at hd
      simp only [ScriptRel, if_neg hd] at hs
      obtain ⟨h1, h2, h3, h4⟩ := hs
      have hsc' : (o.addTree c).script = some (.raw (bs ++ c)) := by simp [BoxDesc.addTree, hsc]
      rw [if_neg (by simp [h1]), if_neg (by simp [h2])]
      simp only [h1, h3, reduceCtorEq, if_false, if_true, h2, Bool.false_or]
      obtain ⟨q', e, hR⟩ := fin { oi with
            type := .script
            boxFinished := (o.addTree c).complete
            data := .hashing (bs ++ c)
            treeSet := (o.addTree c).scriptDone } (bs ++ c) hsc' rfl (by
            have : 255 ≤ (bs ++ c).length := by simp; omega
            rw [rawInfo_long env false this]
            split
            · simp
            · exact ⟨rfl, rfl, this⟩)
      refine ⟨q', ?_, hR⟩
      rw [e]; rfl

end Ergo
