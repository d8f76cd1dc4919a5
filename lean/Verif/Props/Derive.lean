import Verif.Props.Sign
/-!
# C17: which keys are ever derived
-/
namespace Ergo
open Spec

/-- The same services, with another key derivation. -/
def Env.withDerive (env : Env) (f : List UInt32 → Option (Bytes × Bytes)) : Env := { env with derive := f }

theorem attest_env (env : Env) (f) (d : Device) (sub p2 : UInt8) (data : Bytes) (rnd : Rnd) :
    d.attestInput (env.withDerive f) sub p2 data rnd = d.attestInput env sub p2 data rnd := rfl

theorem opTree_env (env : Env) (f) (p : P2pk) (data : Bytes) :
    p.addOutputTree (env.withDerive f) data = p.addOutputTree env data := rfl
theorem opTokens_env (env : Env) (f) (p : P2pk) (data : Bytes) :
    p.addOutputTokens (env.withDerive f) data = p.addOutputTokens env data := rfl
theorem opRegisters_env (env : Env) (f) (p : P2pk) (data : Bytes) :
    p.addOutputRegisters (env.withDerive f) data = p.addOutputRegisters env data := rfl
theorem opFee_env (env : Env) (f) (p : P2pk) (data : Bytes) :
    opFee (env.withDerive f) p data = opFee env p data := rfl
theorem opFrame_env (env : Env) (f) (key : Bytes) (p : P2pk) (data : Bytes) :
    opFrame (env.withDerive f) key p data = opFrame env key p data := rfl
theorem change_env (env : Env) (f) (p : P2pk) (path) (pk : Bytes) :
    p.addOutputChange (env.withDerive f) path pk = p.addOutputChange env path pk := rfl
theorem show_env (env : Env) (f) (nanoS) (d : Device) (cb) (k) :
    d.show (env.withDerive f) nanoS cb k = d.show env nanoS cb k := rfl
theorem finish_env (env : Env) (f) (t s k : Bytes) :
    schnorrFinish (env.withDerive f) t s k = schnorrFinish env t s k := rfl
theorem initLoop_env (env : Env) (f) (s : Bytes) (draws) : ∀ fuel i,
    schnorrInitLoop (env.withDerive f) s draws fuel i = schnorrInitLoop env s draws fuel i
  | 0, _ => rfl
  | fuel + 1, i => by
    simp only [schnorrInitLoop, initLoop_env env f s draws fuel (i + 1)]
    rfl
theorem init_env (env : Env) (f) (s : Bytes) (draws) :
    schnorrInit (env.withDerive f) s draws = schnorrInit env s draws := initLoop_env ..

/-- Paths at which keys are derived: at most 10 components, an account path or an address path. -/
def WalletPath (p : List UInt32) : Prop := (IsAccountPath p ∨ IsAddressPath p) ∧ p.length ≤ 10

theorem parsePathToken_len {d : Bytes} {b : Bool} {path : List UInt32} {token : UInt32}
    (h : parsePathToken d b = .ok (path, token)) : path.length ≤ 10 := by
  unfold parsePathToken at h
  repeat' split at h
  all_goals simp only [reduceCtorEq, Except.ok.injEq, Prod.mk.injEq] at h
  rename_i h2 _ _ _ _ _
  rw [← h.1]
  have := bufPath_some h2
  omega

section
variable {env : Env} {f : List UInt32 → Option (Bytes × Bytes)}
  (hf : ∀ p, WalletPath p → f p = env.derive p)
include hf

theorem genPublic_env {p : List UInt32} (h : WalletPath p) :
    (env.withDerive f).genPublic p = env.genPublic p := by
  have e : (env.withDerive f).derive p = env.derive p := hf p h
  unfold Env.genPublic
  rw [e]
  rfl

theorem genPrivate_env {p : List UInt32} (h : WalletPath p) :
    (env.withDerive f).genPrivate p = env.genPrivate p := by
  have e : (env.withDerive f).derive p = env.derive p := hf p h
  unfold Env.genPrivate
  rw [e]

theorem extPubKey_env (d : Device) (data : Bytes) (b : Bool) :
    d.extPubKey (env.withDerive f) data b = d.extPubKey env data b := by
  unfold Device.extPubKey
  split
  · rfl
  · simp only
    cases hp : parsePathToken data b with
    | error e => rfl
    | ok r =>
      obtain ⟨path, token⟩ := r
      simp only
      split
      · rfl
      · rename_i hv
        simp only [not_not] at hv
        rw [genPublic_env hf ⟨.inl ((validate_account _).1 hv), parsePathToken_len hp⟩]

theorem deriveAddress_env (d : Device) (data : Bytes) (a b : Bool) :
    d.deriveAddress (env.withDerive f) data a b = d.deriveAddress env data a b := by
  unfold Device.deriveAddress
  split
  · rfl
  · simp only
    cases bufU8 data with
    | none => rfl
    | some q =>
      obtain ⟨network, rest⟩ := q
      simp only
      cases hp : parsePathToken rest b with
      | error e => rfl
      | ok r =>
        obtain ⟨path, token⟩ := r
        simp only
        split
        · rfl
        · rename_i hv
          simp only [not_not] at hv
          rw [genPublic_env hf ⟨.inr ((validate_address _).1 hv), parsePathToken_len hp⟩]
          rfl

theorem p2pkInit_env {path : List UInt32} (hl : path.length ≤ 10) (network : UInt8) (draws) :
    p2pkInit (env.withDerive f) path network draws = p2pkInit env path network draws := by
  unfold p2pkInit
  split
  · rfl
  · rename_i hv
    simp only [not_not] at hv
    rw [genPrivate_env hf ⟨.inr ((validate_address _).1 hv), hl⟩]
    simp only [init_env]

theorem signStart_env (d : Device) (data : Bytes) (b : Bool) (rnd : Rnd) :
    d.signStart (env.withDerive f) data b rnd = d.signStart env data b rnd := by
  unfold Device.signStart
  simp only
  cases hp : parseSignInit data b with
  | error e => rfl
  | ok r =>
    obtain ⟨network, path, token⟩ := r
    simp only
    rw [p2pkInit_env hf (parseSignInit_some hp).2.2]

theorem opChange_env (p : P2pk) (data : Bytes) :
    opChange (env.withDerive f) p data = opChange env p data := by
  unfold opChange
  cases hp : readPath data with
  | none => rfl
  | some r =>
    obtain ⟨path, rest⟩ := r
    simp only
    split
    · rfl
    · rename_i hv
      simp only [not_not] at hv
      rw [genPublic_env hf ⟨.inr ((validate_address _).1 hv), (readPath_some hp).2⟩]
      rfl

theorem signSub_env (d : Device) (sub s : UInt8) (data : Bytes) :
    d.signSub (env.withDerive f) sub s data = d.signSub env sub s data := by
  unfold Device.signSub
  simp only [opChange_env hf, opTree_env, opTokens_env, opRegisters_env, opFee_env, opFrame_env]

theorem dispatch_env (d : Device) (cla ins p1 p2 : UInt8) (data : Bytes) (rnd : Rnd) :
    d.dispatch (env.withDerive f) cla ins p1 p2 data rnd = d.dispatch env cla ins p1 p2 data rnd := by
  unfold Device.dispatch Device.signTransaction
  simp only [extPubKey_env hf, deriveAddress_env hf, signStart_env hf, signSub_env hf, attest_env]
  rfl

theorem sendResponse_env {p : P2pk} (h : WalletPath p.path) :
    p.sendResponse (env.withDerive f) = p.sendResponse env := by
  unfold P2pk.sendResponse
  rw [genPrivate_env hf h]
  rfl

/-- C17: the answers, the screens and the states of the device depend on the keys of wallet paths only:
with any other key derivation that agrees on these paths, every execution is the same. -/
theorem C17_keys {nanoS : Bool} {key : Bytes} {tr : List Obs} {d : Device}
    (h : Runs env nanoS key tr d) : Runs (env.withDerive f) nanoS key tr d := by
  induction h with
  | boot => exact .boot
  | @step tr d e h hh hu ih =>
    have hI := h.inv
    have he : d.step (env.withDerive f) nanoS e = d.step env nanoS e := by
      cases e with
      | apdu cla ins p1 p2 data rnd => simp only [Device.step, dispatch_env hf]
      | left => rfl
      | right => rfl
      | both =>
        simp only [Device.step]
        cases hs : d.screen with
        | none => rfl
        | some s =>
          obtain ⟨a, f0, p1, p2, p3⟩ := hI.asking _ hs
          have : ∀ ok, d.act (env.withDerive f) s.cb ok = d.act env s.cb ok := by
            intro ok
            by_cases hcb : s.cb = .signTx
            swap
            · unfold Device.act
              cases hc : s.cb <;> cases d.ctx <;> first | exact absurd hc hcb | rfl
            rw [hcb] at p3 ⊢
            obtain ⟨_, _, _, x, S, hx, _, hB, _⟩ := p3
            obtain ⟨_, path, _, _, i1, i2, i3, _⟩ := hB.init
            have hw : WalletPath x.p.path := by
              rw [i3]
              exact ⟨.inr ((validate_address _).1 (p2pkInit_ok i2).1), (parseSignInit_some i1).2.2⟩
            simp only [Device.act, hx, Device.actSignTx, sendResponse_env hf hw]
          simp only [Device.both, this]
    have ho : d.observe env nanoS e = d.observe (env.withDerive f) nanoS e := by
      simp only [Device.observe, he]
    rw [ho, ← he]
    exact .step e ih (by rw [he]; exact hh) (by rw [he]; exact hu)
end

/-- The derivation of the test environment restricted to wallet paths: the demonstration signing
session runs unchanged (and its two keys are at wallet paths). -/
example : ∃ f : List UInt32 → Option (Bytes × Bytes), f [1, 2, 3] = none ∧ toyEnv.derive [1, 2, 3] ≠ none ∧
    (∀ p, WalletPath p → f p = toyEnv.derive p) ∧
    Runs (toyEnv.withDerive f) false [1] (seen (demoOpen ++ demoTx ++ demoConfirm))
      (after (demoOpen ++ demoTx ++ demoConfirm)) := by
  classical
  have hf : ∀ p, WalletPath p → (fun p => if WalletPath p then toyEnv.derive p else none) p =
      toyEnv.derive p := fun p hp => if_pos hp
  refine ⟨fun p => if WalletPath p then toyEnv.derive p else none, if_neg ?_, by decide, hf,
    C17_keys hf demo_sign⟩
  rintro ⟨⟨a, m, h, _⟩ | ⟨a, b, c, m, h, _⟩, _⟩ <;> simp at h

end Ergo
