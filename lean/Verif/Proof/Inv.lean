import Verif.Proof.Trans
import Verif.Proof.Pieces
import Verif.Proof.Flow
import Verif.Spec.Trace
/-!
# The device state and what the observer knows
-/
namespace Ergo
open Spec

/-- The observation of a transition. -/
theorem observe_eq {env : Env} {nanoS : Bool} {d d' : Device} {e : Event} {r : Reply}
    (h : d.step env nanoS e = (d', r)) : d.observe env nanoS e = ⟨d.asks, d.here, e, r⟩ := by
  unfold Device.observe; rw [h]

/-! ## Parts of the context that never change within a session -/

theorem withTx_keeps {p q : P2pk} {f : FullSt → FullSt × Res FullErr} (h : p.withTx f = .ok q) :
    q.path = p.path ∧ q.key = p.key ∧ q.network = p.network := by
  unfold P2pk.withTx at h
  split at h
  · split at h
    · simp only [OpRes.ok.injEq] at h; subst h; exact ⟨rfl, rfl, rfl⟩
    · simp only [OpRes.ok.injEq] at h; subst h; exact ⟨rfl, rfl, rfl⟩
    · simp at h
    · simp at h
  · simp at h

theorem withOut_keeps {p q : P2pk} {f : FullSt → FullSt × Res FullErr} {g : OutInfo → Bool → OutRes}
    (h : p.withOut f g = .ok q) : q.path = p.path ∧ q.key = p.key ∧ q.network = p.network := by
  unfold P2pk.withOut at h
  split at h
  · simp at h
  split at h
  · split at h
    · simp at h
    · split at h
      · simp at h
      · simp at h
      · split at h
        · simp at h
        · simp at h
        · simp only [OpRes.ok.injEq] at h; subst h; exact ⟨rfl, rfl, rfl⟩
  · simp at h

theorem addInput_keeps {p q : P2pk} {b : Bytes} {v : UInt64} {n : UInt8} {e : UInt32}
    (h : p.addInput b v n e = .ok q) : q.path = p.path ∧ q.key = p.key ∧ q.network = p.network := by
  unfold P2pk.addInput at h
  split at h
  · simp at h
  split at h
  · rename_i p1 hw
    split at h
    · simp at h
    · simp only [OpRes.ok.injEq] at h; subst h; exact (withTx_keeps hw :)
  · rename_i hn; exact absurd h (by intro he; exact hn _ he)

theorem addInputTokens_keeps {p q : P2pk} {b : Bytes} {i : UInt8} {t : Bytes}
    (h : p.addInputTokens b i t = .ok q) :
    q.path = p.path ∧ q.key = p.key ∧ q.network = p.network := by
  unfold P2pk.addInputTokens at h
  split at h
  · simp at h
  · exact withTx_keeps h

theorem signOp_keeps {env : Env} {key : Bytes} {p q : P2pk} {sub : UInt8} {data : Bytes}
    (h : signOp env key p sub data = .ok q) :
    q.path = p.path ∧ q.key = p.key ∧ q.network = p.network := by
  unfold signOp at h
  split at h
  · unfold opStart at h
    split at h
    · simp at h
    · unfold P2pk.startTx at h
      split at h
      · simp at h
      · split at h
        · simp at h
        · simp at h
        · simp only [OpRes.ok.injEq] at h; subst h; exact ⟨rfl, rfl, rfl⟩
  split at h
  · unfold P2pk.addTokens at h
    split at h
    · simp at h
    · exact withTx_keeps h
  split at h
  · unfold opFrame at h
    simp only at h
    split at h
    · simp at h
    split at h
    · simp at h
    split at h
    · simp at h
    split at h
    · exact addInputTokens_keeps h
    · split at h
      · rename_i p1 hw
        obtain ⟨a1, a2, a3⟩ := addInput_keeps hw
        obtain ⟨b1, b2, b3⟩ := addInputTokens_keeps h
        exact ⟨b1.trans a1, b2.trans a2, b3.trans a3⟩
      · rename_i hn; exact absurd h (by intro he; exact hn _ he)
  split at h
  · unfold P2pk.addExtension at h
    split at h
    · simp at h
    · exact withTx_keeps h
  split at h
  · unfold P2pk.addDataInputs at h
    split at h
    · simp at h
    · exact withTx_keeps h
  split at h
  · unfold opOutput at h
    split at h
    · simp at h
    · unfold P2pk.addOutput at h
      split at h
      · simp at h
      split at h
      · rename_i p1 hw
        split at h
        · simp only [OpRes.ok.injEq] at h; subst h; exact (withTx_keeps hw :)
        · simp at h
      · rename_i hn; exact absurd h (by intro he; exact hn _ he)
  split at h
  · exact withOut_keeps h
  split at h
  · unfold opFee at h
    split at h
    · simp at h
    · exact withOut_keeps h
  split at h
  · unfold opChange at h
    split at h
    · simp at h
    split at h
    · simp at h
    split at h
    · simp at h
    · exact withOut_keeps h
  split at h
  · exact withOut_keeps h
  · exact withOut_keeps h

theorem checkFinished_keeps {env : Env} {x y : AttestCtx} {out : Bytes}
    (h : x.checkFinished env = .ok y out) : y.session = x.session ∧ y.token = x.token ∧
      (x.state ≠ .initialized → y.state ≠ .initialized) := by
  unfold AttestCtx.checkFinished at h
  split at h
  · simp only [AttestRes.ok.injEq] at h; obtain ⟨rfl, rfl⟩ := h; exact ⟨rfl, rfl, id⟩
  · split at h
    · simp at h
    · simp only [AttestRes.ok.injEq] at h; obtain ⟨rfl, rfl⟩ := h; exact ⟨rfl, rfl, by simp⟩

theorem part_keeps {env : Env} {x y : AttestCtx} {out : Bytes}
    {r : BoxSt (List (Bytes × UInt64)) × Res BoxErr}
    (h : x.part env r = .ok y out) : y.session = x.session ∧ y.token = x.token ∧
      y.state ≠ .initialized := by
  unfold AttestCtx.part at h
  split at h
  · simp at h
  rename_i hs
  simp only [ne_eq, not_not] at hs
  split at h
  · obtain ⟨h1, h2, h3⟩ := checkFinished_keeps h
    exact ⟨h1, h2, h3 (by simp [hs])⟩
  · simp only [AttestRes.ok.injEq] at h; obtain ⟨rfl, rfl⟩ := h; exact ⟨rfl, rfl, by simp [hs]⟩
  · simp at h
  · simp at h

theorem attestOp_keeps {env : Env} {key : Bytes} {x y : AttestCtx} {sub : UInt8} {data out : Bytes}
    (h : attestOp env key x sub data = .ok y out) : y.session = x.session ∧ y.token = x.token ∧
      y.state ≠ .initialized := by
  unfold attestOp at h
  split at h
  · exact part_keeps h
  split at h
  · exact part_keeps h
  split at h
  · exact part_keeps h
  unfold AttestCtx.getFrame at h
  split at h
  · simp at h
  rename_i hs
  simp only [ne_eq, not_not] at hs
  split at h
  · simp at h
  split at h
  · simp at h
  split at h
  · simp at h
  simp only [AttestRes.ok.injEq] at h; obtain ⟨rfl, rfl⟩ := h
  exact ⟨rfl, rfl, by simp [hs]⟩

/-! ## Tokens of requests -/

theorem be_ofNat32 (v : UInt32) : UInt32.ofNat (be (writeU32be v)) = v := by
  rw [be_writeU32]; simp

theorem last4 (pre : Bytes) (v : UInt32) :
    UInt32.ofNat (be ((pre ++ writeU32be v).drop ((pre ++ writeU32be v).length - 4))) = v := by
  have : (pre ++ writeU32be v).length - 4 = pre.length := by
    simp [length_writeU32]
  rw [this, List.drop_left, be_ofNat32]

theorem bufU8_suffix {d r : Bytes} {v : UInt8} (h : bufU8 d = some (v, r)) : ∃ p, d = p ++ r :=
  ⟨[v], by rw [bufU8_some h]; rfl⟩

theorem pathReadLoop_some : ∀ {n : Nat} {d r : Bytes} {p : List UInt32},
    pathReadLoop n d = some (p, r) → d = p.flatMap writeU32be ++ r ∧ p.length = n
  | 0, d, r, p, h => by
    simp only [pathReadLoop, Option.some.injEq, Prod.mk.injEq] at h
    obtain ⟨rfl, rfl⟩ := h; simp
  | n + 1, d, r, p, h => by
    simp only [pathReadLoop] at h
    split at h
    · simp at h
    rename_i c d1 h1
    split at h
    · simp at h
    rename_i cs d2 h2
    simp only [Option.some.injEq, Prod.mk.injEq] at h
    obtain ⟨rfl, rfl⟩ := h
    obtain ⟨e, l⟩ := pathReadLoop_some h2
    rw [bufU32_some h1, e]
    simp [l]

theorem bufPath_some {n : Nat} {d r : Bytes} {p : List UInt32} (h : bufPath n d = some (p, r)) :
    d = p.flatMap writeU32be ++ r ∧ p.length = n ∧ 0 < n ∧ n ≤ 10 := by
  unfold bufPath at h
  split at h
  · simp at h
  · obtain ⟨h1, h2⟩ := pathReadLoop_some h
    exact ⟨h1, h2, by omega, by omega⟩

theorem pieces4_path : ∀ p : List UInt32,
    (pieces 4 (p.flatMap writeU32be)).map (fun b => UInt32.ofNat (be b)) = p
  | [] => by simp [pieces_nil]
  | c :: p => by
    rw [List.flatMap_cons, pieces_append _ (length_writeU32 c) (by omega), List.map_cons,
      pieces4_path p, be_ofNat32]

theorem flatMap_write32_length : ∀ p : List UInt32, (p.flatMap writeU32be).length = 4 * p.length
  | [] => rfl
  | c :: p => by
    rw [List.flatMap_cons, List.length_append, flatMap_write32_length p, length_writeU32,
      List.length_cons]; omega

/-- A path as read is the path of the description. -/
theorem pathOf_read {len : UInt8} {d1 d2 : Bytes} {p : List UInt32}
    (h2 : bufPath len.toNat d1 = some (p, d2)) :
    pathOf (len :: d1) = p := by
  obtain ⟨e, l, _, _⟩ := bufPath_some h2
  unfold pathOf
  have hf : field (len :: d1) 0 1 = p.length := by
    simp [field, be, l]
  rw [hf, List.drop_one, List.tail_cons, e, List.take_left' (flatMap_write32_length p), pieces4_path]

theorem readPath_some {d r : Bytes} {p : List UInt32} (h : readPath d = some (p, r)) :
    pathOf d = p ∧ p.length ≤ 10 := by
  unfold readPath at h
  split at h
  · simp at h
  rename_i len d1 h1
  rw [bufU8_some h1]
  have := bufPath_some h
  exact ⟨pathOf_read h, by omega⟩

theorem bufPathGo_suffix (n : Nat) (d r : Bytes) (p : List UInt32)
    (h : bufPath n d = some (p, r)) : ∃ q, d = q ++ r :=
  ⟨_, (bufPath_some h).1⟩

theorem tokenTail {d r : Bytes} {b : Bool} {token : UInt32}
    (h : (if b then bufU32 d else some (0, d)) = some (token, r)) (hr : r = []) (pre : Bytes) :
    (if b then UInt32.ofNat (be ((pre ++ d).drop ((pre ++ d).length - 4))) else 0) = token := by
  subst hr
  cases b with
  | false => simp at h; simp [h.1]
  | true =>
    simp only [if_true] at h ⊢
    have := bufU32_some h
    rw [this, List.append_nil]
    exact last4 pre token

theorem parsePathToken_token {d : Bytes} {b : Bool} {path : List UInt32} {token : UInt32}
    (h : parsePathToken d b = .ok (path, token)) (pre : Bytes) :
    (if b then UInt32.ofNat (be ((pre ++ d).drop ((pre ++ d).length - 4))) else 0) = token := by
  unfold parsePathToken at h
  split at h
  · simp at h
  rename_i len d1 h1
  split at h
  · simp at h
  rename_i path' d2 h2
  split at h
  · simp at h
  rename_i tok d3 h3
  split at h
  · simp at h
  rename_i hr
  simp only [Except.ok.injEq, Prod.mk.injEq] at h
  obtain ⟨rfl, rfl⟩ := h
  obtain ⟨q1, e1⟩ := bufU8_suffix h1
  obtain ⟨q2, e2⟩ := bufPathGo_suffix _ _ _ _ h2
  have := tokenTail h3 (not_not.1 hr) (pre ++ q1 ++ q2)
  rw [e1, e2]
  simpa using this

theorem parseSignInit_token {d : Bytes} {b : Bool} {n : UInt8} {path : List UInt32} {token : UInt32}
    (h : parseSignInit d b = .ok (n, path, token)) :
    (if b then UInt32.ofNat (be (d.drop (d.length - 4))) else 0) = token := by
  unfold parseSignInit at h
  split at h
  · simp at h
  rename_i len d1 h1
  split at h
  · simp at h
  rename_i path' d2 h2
  split at h
  · simp at h
  rename_i tok d3 h3
  split at h
  · simp at h
  rename_i hr
  simp only [Except.ok.injEq, Prod.mk.injEq] at h
  obtain ⟨rfl, rfl, rfl⟩ := h
  obtain ⟨q1, e1⟩ := bufU8_suffix h1
  unfold readPath at h2
  split at h2
  · simp at h2
  rename_i len d4 h4
  obtain ⟨q2, e2⟩ := bufU8_suffix h4
  obtain ⟨q3, e3⟩ := bufPathGo_suffix _ _ _ _ h2
  have := tokenTail h3 (not_not.1 hr) (q1 ++ q2 ++ q3)
  rw [e1, e2, e3]
  simpa using this

theorem attestInit_ok {d : Bytes} {b : Bool} {s : UInt8} {x : AttestCtx}
    (h : attestInit d b s = .ok x) : ∃ i, attestParse d b = .ok i ∧ x.token = i.token ∧
      x.boxId = i.txId ∧ x.index = i.index ∧ x.state = .initialized ∧ x.st.s = [] ∧ x.session = s ∧
      boxInit i.value i.treeSize i.height i.tokens i.regs [] = (x.st.c, x.st.h, .ok) := by
  unfold attestInit at h
  split at h
  · simp at h
  rename_i i hi
  generalize hb : boxInit i.value i.treeSize i.height i.tokens i.regs [] = q at h
  obtain ⟨c, hh, r⟩ := q
  have hr : r = .ok ∨ ∃ e, r = .err e := by
    unfold boxInit at hb
    simp only at hb
    repeat' split at hb
    all_goals simp only [Prod.mk.injEq] at hb
    all_goals obtain ⟨_, _, rfl⟩ := hb
    all_goals simp
  rcases hr with rfl | ⟨e, rfl⟩
  · simp only [Except.ok.injEq] at h
    subst h
    exact ⟨i, hi, rfl, rfl, rfl, rfl, rfl, rfl, hb⟩
  · simp at h

theorem attestParse_some {d : Bytes} {b : Bool} {i : AttestInit} (h : attestParse d b = .ok i) :
    ∃ t, d = i.txId ++ writeU16be i.index ++ writeU64be i.value ++ writeU32be i.treeSize ++
      writeU32be i.height ++ [i.tokens] ++ writeU32be i.regs ++ t ∧ i.txId.length = 32 ∧
      (if b then t = writeU32be i.token else t = [] ∧ i.token = 0) := by
  unfold attestParse at h
  split at h
  · simp at h
  rename_i txId d1 h1
  split at h
  · simp at h
  rename_i index d2 h2
  split at h
  · simp at h
  rename_i value d3 h3
  split at h
  · simp at h
  rename_i treeSize d4 h4
  split at h
  · simp at h
  rename_i height d5 h5
  split at h
  · simp at h
  rename_i tokens d6 h6
  split at h
  · simp at h
  rename_i regs d7 h7
  split at h
  · simp at h
  rename_i token d8 h8
  split at h
  · simp at h
  rename_i hr
  simp only [Except.ok.injEq] at h
  subst h
  obtain ⟨e1, l1⟩ := bufBytes_some h1
  refine ⟨d7, ?_, l1, ?_⟩
  · rw [e1, bufU16_some h2, bufU64_some h3, bufU32_some h4, bufU32_some h5, bufU8_some h6,
      bufU32_some h7]
    simp
  · rw [not_not] at hr
    subst hr
    cases b with
    | false =>
      have := h8; simp only [Bool.false_eq_true, if_false, Option.some.injEq, Prod.mk.injEq] at this
      exact ⟨this.2, this.1.symm⟩
    | true => simpa using bufU32_some h8

theorem attestParse_token {d : Bytes} {b : Bool} {i : AttestInit} (h : attestParse d b = .ok i) :
    (if b then UInt32.ofNat (be (d.drop (d.length - 4))) else 0) = i.token := by
  obtain ⟨t, e, _, ht⟩ := attestParse_some h
  cases b with
  | false => simp only [Bool.false_eq_true, if_false] at ht ⊢; exact ht.2.symm
  | true =>
    simp only [if_true] at ht ⊢
    subst ht
    rw [e]
    exact last4 _ _

/-! ## The invariant -/

/-- An approved signing session matches the observer's. -/
structure SignBase (env : Env) (S : SignSess) (x : SignCtx) : Prop where
  ins : S.start.ins = 0x21
  p1 : S.start.p1 = 0x01
  p2 : S.start.p2 = 1 ∨ S.start.p2 = 2
  id : S.id = x.session
  id0 : x.session ≠ 0
  approved : x.approved
  init : ∃ network path token p0,
    parseSignInit S.start.data (S.start.p2 = 2) = .ok (network, path, token) ∧
    p2pkInit env path network S.start.rnd.keys = .ok p0 ∧
    x.p.path = path ∧ x.p.network = network ∧ x.p.key = p0.key

/-- An approved attestation session matches the observer's. -/
structure AttestBase (S : AttestSess) (x : AttestCtx) : Prop where
  ins : S.start.ins = 0x20
  p1 : S.start.p1 = 0x01
  p2 : S.start.p2 = 1 ∨ S.start.p2 = 2
  id : S.id = x.session
  id0 : x.session ≠ 0
  state : x.state ≠ .initialized
  init : ∃ x0, attestInit S.start.data (S.start.p2 = 2) 0 = .ok x0
  consent : S.asked ∨ S.start.token ≠ 0 ∧ S.start.token = S.app

/-- The device with the main menu on display. -/
def Idle (env : Env) (g : Ghost) (d : Device) : Prop :=
  match d.command with
  | .none => d.ctx = .zeroed
  | .deriveAddress => d.ctx = .zeroed
  | .extPubKey => False
  | .attestInput => ∃ x S, d.ctx = .attest x ∧ g.attest = some S ∧ AttestBase S x
  | .signTransaction => ∃ x S, d.ctx = .sign x ∧ g.sign = some S ∧ SignBase env S x

/-- The device waiting for the user; `a` is the request, `f0` the flow as first shown. -/
def Asking (env : Env) (g : Ghost) (d : Device) (a : Request) (f0 : Flow) : Callback → Prop
  | .extPubKey => a.ins = 0x10 ∧ d.command = .extPubKey ∧ (a.p1 = 1 ∨ a.p1 = 2) ∧
    ∃ path token pub chain t, parsePathToken a.data (a.p1 = 2) = .ok (path, token) ∧
      pathValidate path .accountGe3 ∧ env.genPublic path = some (pub, chain) ∧
      pathFormat path bip32StrLen = some t ∧ f0 = .static (epkSteps t token) ∧
      d.ctx = .extPub ⟨pub, chain, token⟩
  | .deriveAddress => a.ins = 0x11 ∧ d.command = .deriveAddress ∧ (a.p2 = 1 ∨ a.p2 = 2) ∧
    ∃ network rest path token pub chain raw t, a.data = network :: rest ∧
      parsePathToken rest (a.p2 = 2) = .ok (path, token) ∧
      pathValidate path .addressGe5 ∧ env.genPublic path = some (pub, chain) ∧
      addressFromPubkey env network pub = some raw ∧
      pathFormat path bip32StrLen = some t ∧
      (a.p1 = 1 ∧ f0 = .static (daSendSteps t token) ∧ d.ctx = .derive ⟨raw, token, true⟩ ∨
       a.p1 = 2 ∧ ∃ s, base58Encode raw addressStrLen = some s ∧ s.length < addressStrLen ∧
         f0 = .static (daShowSteps t s token) ∧ d.ctx = .derive ⟨raw, token, false⟩)
  | .attest => a.ins = 0x20 ∧ a.p1 = 0x01 ∧ (a.p2 = 1 ∨ a.p2 = 2) ∧ d.command = .attestInput ∧
    ∃ x s, attestInit a.data (a.p2 = 2) 0 = .ok x ∧ s ≠ 0 ∧ newSession 0 a.rnd.u8s = some s ∧
      f0 = .static (attestSteps x.token) ∧ d.ctx = .attest { x with session := s }
  | .signInit => a.ins = 0x21 ∧ a.p1 = 0x01 ∧ (a.p2 = 1 ∨ a.p2 = 2) ∧
    d.command = .signTransaction ∧
    ∃ network path token p s t, parseSignInit a.data (a.p2 = 2) = .ok (network, path, token) ∧
      p2pkInit env path network a.rnd.keys = .ok p ∧ s ≠ 0 ∧ newSession 0 a.rnd.u8s = some s ∧
      pathFormat path bip32StrLen = some t ∧ f0 = .static (signInitSteps d t token) ∧
      d.ctx = .sign ⟨false, s, { p with u := .uiApprove token }⟩
  | .signOutput => a.ins = 0x21 ∧ 0x16 ≤ a.p1 ∧ a.p1 ≤ 0x1A ∧ d.command = .signTransaction ∧
    ∃ x S t o, d.ctx = .sign x ∧ g.sign = some S ∧ SignBase env S x ∧ x.p.u = .transaction t ∧
      t.out = some o ∧ f0 = .dynamic ⟨.confirmOutput, .nothing⟩ (outputScreenCount o)
  | .signTx => a.ins = 0x21 ∧ a.p1 = 0x20 ∧ d.command = .signTransaction ∧
    ∃ x S, d.ctx = .sign x ∧ g.sign = some S ∧ SignBase env S x ∧ x.p.u = .uiConfirm ∧
      x.p.state = .finalized ∧ f0 = .dynamic ⟨.approveSigning, .nothing⟩ (txScreenCount x.p.amounts)

/-- The device state matches what the observer knows. -/
structure Inv (env : Env) (key : Bytes) (g : Ghost) (d : Device) : Prop where
  key : d.sessionKey = key
  app : d.connectedApp = g.app
  busy : d.busy = d.screen.isSome
  idle : d.screen = none → Idle env g d
  asking : ∀ s, d.screen = some s →
    ∃ a f0, g.pending = some a ∧ FlowOk f0 s.flow ∧ Asking env g d a f0 s.cb

theorem newSession_ne {old : UInt8} {l : List UInt8} {s : UInt8} (h : newSession old l = some s) :
    s ≠ 0 := by
  unfold newSession at h
  have := List.find?_some h
  intro e
  subst e
  simp at this

theorem p2pkInit_ok {env : Env} {path : List UInt32} {network : UInt8} {draws : Nat → Bytes}
    {p : P2pk} (h : p2pkInit env path network draws = .ok p) :
    pathValidate path .addressGe5 ∧ networkSupported network ∧ ∃ secret h0 key,
      env.genPrivate path = some secret ∧ schnorrInit env secret draws = some (h0, key) ∧
      p = ⟨.initialized, key, path, h0, network, .zero, .zero⟩ := by
  unfold p2pkInit at h
  split at h
  · simp at h
  rename_i h1
  split at h
  · simp at h
  rename_i h2
  split at h
  · simp at h
  rename_i secret hs
  split at h
  · simp at h
  rename_i h0 key hk
  simp only [OpRes.ok.injEq] at h
  exact ⟨not_not.1 h1, not_not.1 h2, secret, h0, key, hs, hk, h.symm⟩

theorem outputScreenCount_pos (o : OutInfo) : 0 < outputScreenCount o := by
  unfold outputScreenCount; split <;> omega
theorem txScreenCount_pos (a : Amounts) : 0 < txScreenCount a := by
  unfold txScreenCount; omega

theorem epkSteps_pages (t : List Char) (token : UInt32) :
    ∀ s ∈ epkSteps t token, (FlowStep.page? s).isSome := by
  intro s hs
  unfold epkSteps at hs
  split at hs <;> simp at hs
  · rcases hs with rfl | rfl | rfl <;> rfl
  · rcases hs with rfl | rfl <;> rfl
theorem daSendSteps_pages (t : List Char) (token : UInt32) :
    ∀ s ∈ daSendSteps t token, (FlowStep.page? s).isSome := by
  intro s hs
  unfold daSendSteps at hs
  split at hs <;> simp at hs
  · rcases hs with rfl | rfl | rfl <;> rfl
  · rcases hs with rfl | rfl <;> rfl
theorem daShowSteps_pages (t a : List Char) (token : UInt32) :
    ∀ s ∈ daShowSteps t a token, (FlowStep.page? s).isSome := by
  intro s hs
  unfold daShowSteps at hs
  split at hs <;> simp at hs
  · rcases hs with rfl | rfl | rfl | rfl <;> rfl
  · rcases hs with rfl | rfl | rfl <;> rfl
theorem attestSteps_pages (token : UInt32) :
    ∀ s ∈ attestSteps token, (FlowStep.page? s).isSome := by
  intro s hs
  unfold attestSteps at hs
  split at hs <;> simp at hs
  · rcases hs with rfl | rfl <;> rfl
  · subst hs; rfl
theorem signInitSteps_pages (d : Device) (t : List Char) (token : UInt32) :
    ∀ s ∈ signInitSteps d t token, (FlowStep.page? s).isSome := by
  intro s hs
  unfold signInitSteps at hs
  split at hs <;> simp at hs
  · subst hs; rfl
  · rcases hs with rfl | rfl <;> rfl

theorem neutral_ghost {d : Device} {cla ins : UInt8} {data : Bytes} {sw : UInt16}
    (h : neutralSw d cla ins data sw) : sw ≠ 0x9000 ∧ harmless sw = true := by
  rcases h with ⟨rfl, _⟩ | rfl | ⟨rfl, _⟩ | ⟨rfl, _⟩ | ⟨rfl, _⟩ <;> decide

/-- A device with the menu and no command. -/
theorem Inv.closed {env : Env} {key : Bytes} {g : Ghost} {d : Device} (hk : d.sessionKey = key)
    (ha : d.connectedApp = g.app) : Inv env key g (d.setCommand .none).menu where
  key := hk
  app := ha
  busy := rfl
  idle := fun _ => rfl
  asking := by intro s h; simp [Device.menu] at h

theorem Inv.closed' {env : Env} {key : Bytes} {g : Ghost} {d : Device} (hk : d.sessionKey = key)
    (ha : d.connectedApp = g.app) (hs : d.screen = none) : Inv env key g (d.setCommand .none) where
  key := hk
  app := ha
  busy := by show false = d.screen.isSome; rw [hs]; rfl
  idle := fun _ => rfl
  asking := by intro s h; rw [show (d.setCommand .none).screen = d.screen from rfl, hs] at h; simp at h

/-- A device that has just put a flow on display. -/
theorem Inv.shown {env : Env} {key : Bytes} {g : Ghost} {d : Device} {a : Request} {f : Flow}
    {cb : Callback} (hk : d.sessionKey = key) (ha : d.connectedApp = g.app)
    (hp : g.pending = some a) (hf : FlowOk f f) (h : Asking env g (d.display f cb) a f cb) :
    Inv env key g (d.display f cb) where
  key := hk
  app := ha
  busy := rfl
  idle := by intro h; simp [Device.display] at h
  asking := by
    intro s hs
    simp only [Device.display, Option.some.injEq] at hs
    subst hs
    exact ⟨a, f, hp, hf, h⟩

theorem asks_eq {d : Device} {s : Screen} {f0 : Flow} (hs : d.screen = some s)
    (hf : FlowOk f0 s.flow) : d.asks = f0.title := by
  unfold Device.asks
  rw [hs]
  exact hf.title

/-- `Asking` depends on the observer only through the signing session. -/
theorem Asking.congr {env : Env} {g g' : Ghost} {d d' : Device} {a : Request} {f0 : Flow}
    {cb : Callback} (h : Asking env g d a f0 cb) (hg : g'.sign = g.sign) (hc : d'.ctx = d.ctx)
    (hm : d'.command = d.command) (ha : d'.connectedApp = d.connectedApp) :
    Asking env g' d' a f0 cb := by
  cases cb <;> simp only [Asking, signInitSteps, hg, hc, hm, ha] at h ⊢ <;> exact h

theorem token_of_epk {a : Request} {path : List UInt32} {token : UInt32} (hi : a.ins = 0x10)
    (h : parsePathToken a.data (a.p1 = 2) = .ok (path, token)) : a.token = token := by
  have := parsePathToken_token h []
  unfold Request.token Request.hasToken
  rw [if_pos hi]
  simpa using this

theorem token_of_da {a : Request} {path : List UInt32} {token : UInt32} {n : UInt8} {rest : Bytes}
    (hi : a.ins = 0x11) (hd : a.data = n :: rest)
    (h : parsePathToken rest (a.p2 = 2) = .ok (path, token)) : a.token = token := by
  have := parsePathToken_token h [n]
  unfold Request.token Request.hasToken
  rw [if_neg (show ¬ a.ins = 0x10 by rw [hi]; decide), hd]
  simpa using this

theorem token_of_attest {a : Request} {x : AttestCtx} (hi : a.ins = 0x20)
    (h : attestInit a.data (a.p2 = 2) 0 = .ok x) : a.token = x.token := by
  obtain ⟨i, h1, h2, _⟩ := attestInit_ok h
  have := attestParse_token h1
  unfold Request.token Request.hasToken
  rw [if_neg (show ¬ a.ins = 0x10 by rw [hi]; decide), h2, ← this]

theorem token_of_sign {a : Request} {n : UInt8} {path : List UInt32} {token : UInt32}
    (hi : a.ins = 0x21) (h : parseSignInit a.data (a.p2 = 2) = .ok (n, path, token)) :
    a.token = token := by
  have := parseSignInit_token h
  unfold Request.token Request.hasToken
  rw [if_neg (show ¬ a.ins = 0x10 by rw [hi]; decide), ← this]

theorem isKnown_iff {s a : UInt32} : isKnown s a = true ↔ s ≠ 0 ∧ a ≠ 0 ∧ a = s := by
  unfold isKnown; simp

theorem idle_of {env : Env} {key : Bytes} {g : Ghost} {d : Device} (h : Inv env key g d)
    (hb : d.busy = false) : d.screen = none := by
  have := h.busy
  rw [hb] at this
  cases hs : d.screen with
  | none => rfl
  | some s => rw [hs] at this; simp at this

theorem closeIf {g : Ghost} {sw : UInt16} :
    (if harmless sw = true then g else g.close).app = g.app ∧
    (if harmless sw = true then g else g.close).pending = g.pending := by
  split <;> exact ⟨rfl, rfl⟩

theorem SignBase.log {env : Env} {S : SignSess} {x : SignCtx} {p : P2pk} (h : SignBase env S x)
    (hk : p.path = x.p.path ∧ p.key = x.p.key ∧ p.network = x.p.network) (l : List Entry) :
    SignBase env { S with log := l } { x with p := p } where
  ins := h.ins
  p1 := h.p1
  p2 := h.p2
  id := h.id
  id0 := h.id0
  approved := h.approved
  init := by
    obtain ⟨n, path, t, p0, h1, h2, h3, h4, h5⟩ := h.init
    exact ⟨n, path, t, p0, h1, h2, hk.1.trans h3, hk.2.2.trans h4, hk.2.1.trans h5⟩

/-- Every transition preserves the invariant. -/
theorem Inv.trans {env : Env} {nanoS : Bool} {key : Bytes} {g : Ghost} {d d' : Device} {e : Event}
    {r : Reply} (hI : Inv env key g d) (hT : Trans env nanoS d e d' r) (hh : r ≠ .hang)
    (hu : r ≠ .ub) : Inv env key (g.next ⟨d.asks, d.here, e, r⟩) d' := by
  cases hT with
  | neutral h =>
    obtain ⟨h1, h2⟩ := neutral_ghost h
    simp only [Ghost.next, status, if_neg h1, h2, if_true]
    exact hI
  | version hl => simpa [Ghost.next, Ghost.onOk, Sw.ok] using hI
  | name hl => simpa [Ghost.next, Ghost.onOk, Sw.ok] using hI
  | abort hb hsw hi =>
    have hs := idle_of hI hb
    have hsw' : ¬ _ = (0x9000 : UInt16) := hsw
    simp only [Ghost.next, status, if_neg hsw']
    exact Inv.closed' hI.key (hI.app.trans closeIf.1.symm) hs
  | deriveFail hb =>
    have hs := idle_of hI hb
    refine ⟨hI.key, hI.app, ?_, ?_, ?_⟩
    · show false = d.screen.isSome; rw [hs]; rfl
    · intro _; exact rfl
    · intro s h
      rw [show (d.setCommand .deriveAddress).screen = d.screen from rfl, hs] at h; simp at h
  | epkSend hb h1 hp hv hg hk =>
    exact Inv.closed' hI.key hI.app (idle_of hI hb)
  | epkAsk hb h1 hp hv hg hk hf =>
    refine Inv.shown (a := ⟨0x10, _, _, _, _⟩) hI.key hI.app rfl (FlowOk.start_static (epkSteps_pages _ _)) ?_
    exact ⟨rfl, rfl, h1, _, _, _, _, _, hp, hv, hg, hf, rfl, rfl⟩
  | daSend hb h1 h2 hd hp hv hg ha hk =>
    exact Inv.closed' hI.key hI.app (idle_of hI hb)
  | daAskSend hb h1 h2 hd hp hv hg ha hk hf =>
    refine Inv.shown (a := ⟨0x11, _, _, _, _⟩) hI.key hI.app rfl
      (FlowOk.start_static (daSendSteps_pages _ _)) ?_
    exact ⟨rfl, rfl, h2, _, _, _, _, _, _, _, _, hd, hp, hv, hg, ha, hf, .inl ⟨h1, rfl, rfl⟩⟩
  | daAskShow hb h1 h2 hd hp hv hg ha hf hs hl =>
    refine Inv.shown (a := ⟨0x11, _, _, _, _⟩) hI.key hI.app rfl
      (FlowOk.start_static (daShowSteps_pages _ _ _)) ?_
    exact ⟨rfl, rfl, h2, _, _, _, _, _, _, _, _, hd, hp, hv, hg, ha, hf,
      .inr ⟨h1, _, hs, hl, rfl, rfl⟩⟩
  | attestHang hb => exact absurd rfl hh
  | @attestKnown p2 data rnd x s hb h2 hi hs hk =>
    have hsc := idle_of hI hb
    refine ⟨hI.key, hI.app, ?_, ?_, ?_⟩
    · show false = d.screen.isSome; rw [hsc]; rfl
    · intro _
      obtain ⟨k1, k2, k3⟩ := isKnown_iff.1 hk
      have ht : Request.token ⟨0x20, 0x01, p2, data, rnd⟩ = x.token :=
        token_of_attest (a := ⟨0x20, 0x01, p2, data, rnd⟩) rfl hi
      refine ⟨_, _, rfl, rfl, rfl, rfl, h2, rfl, newSession_ne hs, by simp, ⟨x, hi⟩, .inr ⟨?_, ?_⟩⟩
      · show Request.token ⟨0x20, 0x01, p2, data, rnd⟩ ≠ 0
        rw [ht]; exact k2
      · show Request.token ⟨0x20, 0x01, p2, data, rnd⟩ = g.app
        rw [ht, k3]; exact hI.app
    · intro s' h
      have : d.screen = some s' := h
      rw [hsc] at this; simp at this
  | attestAsk hb h2 hi hs hk =>
    refine Inv.shown (a := ⟨0x20, 0x01, _, _, _⟩) hI.key hI.app rfl
      (FlowOk.start_static (attestSteps_pages _)) ?_
    exact ⟨rfl, rfl, h2, rfl, _, _, hi, newSession_ne hs, hs, rfl, rfl⟩
  | @attestOk sub p2 data rnd x x' out hb hl hsub hc hx hs ho =>
    have hsc := idle_of hI hb
    have hid := hI.idle hsc
    unfold Idle at hid
    rw [hc] at hid
    obtain ⟨y, S, hy, hS, hB⟩ := hid
    rw [hx] at hy
    simp only [Ctx.attest.injEq] at hy
    subst hy
    obtain ⟨k1, k2, k3⟩ := attestOp_keeps ho
    have hne : ¬ sub = 0x01 := by rcases hsub with rfl | rfl | rfl | rfl <;> decide
    have e1 : g.next ⟨d.asks, d.here, .apdu 0xE0 0x20 sub p2 data rnd, .sw Sw.ok out⟩ =
        { g with attest := g.attest.map (fun s => { s with log := s.log ++ [(sub, data)] }) } := by
      show (if sub = 0x01 then _ else _) = _
      rw [if_neg hne]
    rw [e1]
    refine ⟨hI.key, hI.app, hI.busy, ?_, ?_⟩
    · intro _
      unfold Idle
      simp only [hc, hS, Option.map_some]
      exact ⟨x', _, rfl, rfl, hB.ins, hB.p1, hB.p2, hB.id.trans k1.symm, by rw [k1]; exact hB.id0, k3,
        hB.init, hB.consent⟩
    · intro s' h
      have : d.screen = some s' := h
      rw [hsc] at this; simp at this
  | attestUb => exact absurd rfl hu
  | signHang => exact absurd rfl hh
  | signInitUb => exact absurd rfl hu
  | signAsk hb h2 hp hi hs hf =>
    refine Inv.shown (a := ⟨0x21, 0x01, _, _, _⟩) hI.key hI.app rfl
      (FlowOk.start_static (signInitSteps_pages _ _ _)) ?_
    exact ⟨rfl, rfl, h2, rfl, _, _, _, _, _, _, hp, hi, newSession_ne hs, hs, hf, rfl, rfl⟩
  | @signOk sub p2 data rnd x p hb hl hsub hc hx hs ha ho hn =>
    have hsc := idle_of hI hb
    have hid := hI.idle hsc
    unfold Idle at hid
    rw [hc] at hid
    obtain ⟨y, S, hy, hS, hB⟩ := hid
    rw [hx] at hy
    simp only [Ctx.sign.injEq] at hy
    subst hy
    have e1 : g.next ⟨d.asks, d.here, .apdu 0xE0 0x21 sub p2 data rnd, status Sw.ok⟩ =
        g.log (.cmd sub data) := rfl
    rw [e1]
    refine ⟨hI.key, hI.app, hI.busy, ?_, ?_⟩
    · intro _
      unfold Idle
      simp only [hc, Ghost.log, hS, Option.map_some]
      exact ⟨_, _, rfl, rfl, hB.log (signOp_keeps ho) _⟩
    · intro s' h
      have : d.screen = some s' := h
      rw [hsc] at this; simp at this
  | @signShow sub p2 data rnd x p t o hb hl hsub hc hx hs ha ho hn hu' hout =>
    have hsc := idle_of hI hb
    have hid := hI.idle hsc
    unfold Idle at hid
    rw [hc] at hid
    obtain ⟨y, S, hy, hS, hB⟩ := hid
    rw [hx] at hy
    simp only [Ctx.sign.injEq] at hy
    subst hy
    have h1 : ¬ sub = 0x01 := by rintro rfl; revert hsub; decide
    have h20 : ¬ sub = 0x20 := by rintro rfl; revert hsub; decide
    have e1 : g.next ⟨d.asks, d.here, .apdu 0xE0 0x21 sub p2 data rnd, .wait⟩ =
        { g.log (.cmd sub data) with pending := some ⟨0x21, sub, p2, data, rnd⟩ } := by
      simp only [Ghost.next, Ghost.onWait, ne_eq, h1, not_false_eq_true, and_self, if_true, h20,
        if_false]
    rw [e1]
    refine Inv.shown (a := ⟨0x21, sub, p2, data, rnd⟩) hI.key hI.app rfl
      (FlowOk.start_dyn (outputScreenCount_pos _)) ?_
    refine ⟨rfl, hsub.1, hsub.2, hc, _, { S with log := S.log ++ [.cmd sub data] }, _, o, rfl, ?_,
      ?_, rfl, hout, rfl⟩
    · simp only [Ghost.log, hS, Option.map_some]
    · have hk := signOp_keeps ho
      exact hB.log (p := { p with u := .transaction { t with lastChange := [] } })
        ⟨hk.1, hk.2.1, hk.2.2⟩ _
  | signUb => exact absurd rfl hu
  | @signConfirm p2 data rnd x hb hl hc hx hs ha hp =>
    have hsc := idle_of hI hb
    have hid := hI.idle hsc
    unfold Idle at hid
    rw [hc] at hid
    obtain ⟨y, S, hy, hS, hB⟩ := hid
    rw [hx] at hy
    simp only [Ctx.sign.injEq] at hy
    subst hy
    have e1 : g.next ⟨d.asks, d.here, .apdu 0xE0 0x21 0x20 p2 data rnd, .wait⟩ =
        { g with pending := some ⟨0x21, 0x20, p2, data, rnd⟩ } := rfl
    rw [e1]
    refine Inv.shown (a := ⟨0x21, 0x20, p2, data, rnd⟩) hI.key hI.app rfl
      (FlowOk.start_dyn (txScreenCount_pos _)) ?_
    refine ⟨rfl, rfl, hc, _, S, rfl, hS, ?_, rfl, rfl, rfl⟩
    have := hB.log (p := { x.p with state := .finalized, u := .uiConfirm }) ⟨rfl, rfl, rfl⟩ S.log
    exact this
  | idle he hs =>
    rcases he with rfl | rfl | rfl <;> exact hI
  | @move e s m he hs hm =>
    have hg : g.next ⟨d.asks, d.here, e, .wait⟩ = g := by
      rcases he with ⟨rfl, _⟩ | ⟨rfl, _⟩ <;> rfl
    rw [hg]
    obtain ⟨a, f0, h1, h2, h3⟩ := hI.asking s hs
    refine ⟨hI.key, hI.app, ?_, ?_, ?_⟩
    · show d.busy = true
      rw [hI.busy, hs]; rfl
    · intro h; simp at h
    · intro s' hs'
      simp only [Option.some.injEq] at hs'
      subst hs'
      refine ⟨a, f0, h1, ?_, h3.congr rfl rfl rfl rfl⟩
      rcases he with ⟨_, rfl⟩ | ⟨_, rfl⟩
      · exact h2.left.1
      · exact h2.right.1
  | @moveErr e s m k sw he hs hm hk =>
    have hg : g.next ⟨d.asks, d.here, e, status sw⟩ = g.close := by
      rcases he with ⟨rfl, _⟩ | ⟨rfl, _⟩ <;> rfl
    rw [hg]
    exact Inv.closed hI.key hI.app
  | moveUb => exact absurd rfl hu
  | click hs h1 h2 h3 => exact hI
  | reject hs h1 => exact Inv.closed hI.key hI.app
  | @okEpk s x hs h1 hcb hx =>
    obtain ⟨a, f0, p1, p2, p3⟩ := hI.asking s hs
    rw [hcb] at p3
    obtain ⟨q1, _, _, path, token, pub, chain, t, q2, _, _, _, q3, q4⟩ := p3
    rw [hx] at q4
    simp only [Ctx.extPub.injEq] at q4
    subst q4
    have hask : d.asks = some .extPubKeyExport := by rw [asks_eq hs p2, q3]; rfl
    refine Inv.closed (d := { d with connectedApp := token }) hI.key ?_
    simp only [Ghost.next, Sw.ok, if_true, hask, Ghost.onApprove, p1, Option.map_some,
      Option.getD_some]
    exact (token_of_epk q1 q2).symm
  | @okDa s x hs h1 hcb hx =>
    obtain ⟨a, f0, p1, p2, p3⟩ := hI.asking s hs
    rw [hcb] at p3
    obtain ⟨q1, _, _, network, rest, path, token, pub, chain, raw, t, q0, q2, _, _, _, _, q3⟩ := p3
    have hask : (d.asks = some .confirmSendAddress ∨ d.asks = some .confirmAddress) ∧
        x.token = token := by
      rcases q3 with ⟨_, q3, q4⟩ | ⟨_, s', _, _, q3, q4⟩
      · rw [hx] at q4
        simp only [Ctx.derive.injEq] at q4
        subst q4
        exact ⟨.inl (by rw [asks_eq hs p2, q3]; rfl), rfl⟩
      · rw [hx] at q4
        simp only [Ctx.derive.injEq] at q4
        subst q4
        exact ⟨.inr (by rw [asks_eq hs p2, q3]; rfl), rfl⟩
    obtain ⟨hask, htok⟩ := hask
    refine Inv.closed (d := { d with connectedApp := x.token }) hI.key ?_
    rcases hask with hask | hask <;>
    · simp only [Ghost.next, Sw.ok, if_true, hask, Ghost.onApprove, p1, Option.map_some,
        Option.getD_some]
      rw [htok]
      exact (token_of_da q1 q0 q2).symm
  | @okAttest s x hs h1 hcb hx =>
    obtain ⟨a, f0, p1, p2, p3⟩ := hI.asking s hs
    rw [hcb] at p3
    obtain ⟨q1, q2, q3, q4, x0, s0, q5, q6, _, q7, q8⟩ := p3
    rw [hx] at q8
    simp only [Ctx.attest.injEq] at q8
    subst q8
    have hask : d.asks = some .confirmAttest := by rw [asks_eq hs p2, q7]; rfl
    have e1 : g.next ⟨d.asks, d.here, .both, .sw Sw.ok [s0]⟩ =
        { g with app := a.token, attest := some ⟨a, s0, true, g.app, []⟩ } := by
      simp only [Ghost.next, Sw.ok, if_true, hask, Ghost.onApprove, p1, Option.map_some,
        Option.getD_some, List.headD_cons]
    rw [e1]
    refine ⟨hI.key, (token_of_attest q1 q5).symm, rfl, ?_, ?_⟩
    · intro _
      unfold Idle
      simp only [Device.menu, q4]
      exact ⟨_, _, rfl, rfl, q1, q2, q3, rfl, q6, by simp, ⟨x0, q5⟩, .inl rfl⟩
    · intro s' h; simp [Device.menu] at h
  | @okSignInit s x token hs h1 hcb hx hu' =>
    obtain ⟨a, f0, p1, p2, p3⟩ := hI.asking s hs
    rw [hcb] at p3
    obtain ⟨q1, q2, q3, q4, network, path, token', p, s0, t, q5, q6, q7, _, q8, q9, q10⟩ := p3
    rw [hx] at q10
    simp only [Ctx.sign.injEq] at q10
    subst q10
    simp only [P2pkU.uiApprove.injEq] at hu'
    subst hu'
    have hask : d.asks = some .p2pkSigning := by rw [asks_eq hs p2, q9]; rfl
    have e1 : g.next ⟨d.asks, d.here, .both, .sw Sw.ok [s0]⟩ =
        { g with app := a.token, sign := some ⟨a, s0, []⟩ } := by
      simp only [Ghost.next, Sw.ok, if_true, hask, Ghost.onApprove, p1, Option.map_some,
        Option.getD_some, List.headD_cons]
    rw [e1]
    refine ⟨hI.key, (token_of_sign q1 q5).symm, rfl, ?_, ?_⟩
    · intro _
      unfold Idle
      simp only [Device.menu, q4]
      obtain ⟨_, _, secret, h0, k, _, _, rfl⟩ := p2pkInit_ok q6
      exact ⟨_, _, rfl, rfl, q1, q2, q3, rfl, q7, rfl, network, path, token', _, q5, q6, rfl, rfl, rfl⟩
    · intro s' h; simp [Device.menu] at h
  | @okSignOutput s x t o last hs h1 hcb hx hu' hout hl =>
    obtain ⟨a, f0, p1, p2, p3⟩ := hI.asking s hs
    rw [hcb] at p3
    obtain ⟨q1, q2, q3, q4, x', S, t', o', q5, q6, q7, q8, q9, q10⟩ := p3
    rw [hx] at q5
    simp only [Ctx.sign.injEq] at q5
    subst q5
    have hask : d.asks = some .confirmOutput := by rw [asks_eq hs p2, q10]; rfl
    have e1 : g.next ⟨d.asks, d.here, .both, status Sw.ok⟩ = g.log .approve := by
      simp only [Ghost.next, status, Sw.ok, if_true, hask, Ghost.onApprove]
    rw [e1]
    refine ⟨hI.key, hI.app, rfl, ?_, ?_⟩
    · intro _
      unfold Idle
      simp only [Device.menu, q4, Ghost.log, q6, Option.map_some]
      exact ⟨_, _, rfl, rfl, q7.log (p := { x.p with u := .transaction { t with lastChange := last } })
        ⟨rfl, rfl, rfl⟩ _⟩
    · intro s' h; simp [Device.menu] at h
  | @okSignTx s x sig hs h1 hcb hx hsig =>
    obtain ⟨a, f0, p1, p2, p3⟩ := hI.asking s hs
    rw [hcb] at p3
    obtain ⟨q1, q2, q4, x', S, q5, q6, q7, q8, q9, q10⟩ := p3
    have hask : d.asks = some .approveSigning := by rw [asks_eq hs p2, q10]; rfl
    have e1 : g.next ⟨d.asks, d.here, .both, .sw Sw.ok sig⟩ = g.close := by
      simp only [Ghost.next, Sw.ok, if_true, hask, Ghost.onApprove]
    rw [e1]
    exact Inv.closed hI.key hI.app
  | @failSignTx s x sw hs h1 hcb hx hsig =>
    have hne : ¬ sw = 0x9000 := (sendResponse_err hsig).1
    have e1 : g.next ⟨d.asks, d.here, .both, status sw⟩ = g.close := by
      simp only [Ghost.next, status, if_neg hne]
    rw [e1]
    exact Inv.closed hI.key hI.app
  | actUb => exact absurd rfl hu

/-- The invariant holds in every execution. -/
theorem Runs.inv {env : Env} {nanoS : Bool} {key : Bytes} {tr : List Obs} {d : Device}
    (h : Runs env nanoS key tr d) : Inv env key (know tr) d := by
  induction h with
  | boot =>
    exact ⟨rfl, rfl, rfl, fun _ => rfl, by intro s h; simp [Device.boot] at h⟩
  | step e h hh hu ih => exact ih.trans (step_trans rfl) hh hu

/-- The flow of each callback, by the title of its first page. -/
def AsksFor : Callback → Option Title → Prop
  | .extPubKey, t => t = some .extPubKeyExport
  | .deriveAddress, t => t = some .confirmSendAddress ∨ t = some .confirmAddress
  | .attest, t => t = some .confirmAttest
  | .signInit, t => t = some .p2pkSigning
  | .signOutput, t => t = some .confirmOutput
  | .signTx, t => t = some .approveSigning

theorem Inv.asks {env : Env} {key : Bytes} {g : Ghost} {d : Device} (h : Inv env key g d)
    {s : Screen} (hs : d.screen = some s) : AsksFor s.cb d.asks := by
  obtain ⟨a, f0, p1, p2, p3⟩ := h.asking s hs
  rw [asks_eq hs p2]
  cases hcb : s.cb with
  | extPubKey =>
    rw [hcb] at p3
    obtain ⟨_, _, _, path, token, pub, chain, t, _, _, _, _, q3, _⟩ := p3
    rw [q3]; rfl
  | deriveAddress =>
    rw [hcb] at p3
    obtain ⟨_, _, _, n, rest, path, token, pub, chain, raw, t, _, _, _, _, _, _, q3⟩ := p3
    rcases q3 with ⟨_, q3, _⟩ | ⟨_, s', _, _, q3, _⟩
    · rw [q3]; exact .inl rfl
    · rw [q3]; exact .inr rfl
  | attest =>
    rw [hcb] at p3
    obtain ⟨_, _, _, _, x, s', _, _, _, q3, _⟩ := p3
    rw [q3]; rfl
  | signInit =>
    rw [hcb] at p3
    obtain ⟨_, _, _, _, n, path, token, p, s', t, _, _, _, _, _, q3, _⟩ := p3
    rw [q3]; rfl
  | signOutput =>
    rw [hcb] at p3
    obtain ⟨_, _, _, _, x, S, t, o, _, _, _, _, _, q3⟩ := p3
    rw [q3]; rfl
  | signTx =>
    rw [hcb] at p3
    obtain ⟨_, _, _, x, S, _, _, _, _, _, q3⟩ := p3
    rw [q3]; rfl

end Ergo
