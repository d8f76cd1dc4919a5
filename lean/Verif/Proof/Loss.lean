import Verif.Proof.AcceptDev
import Mathlib.Tactic.SplitIfs
/-!
# The token table is fixed once there are inputs
-/
namespace Ergo
open Spec

theorem withOut_nf {p p' : P2pk} {f : FullSt → FullSt × Res FullErr} {g : OutInfo → Bool → OutRes}
    (h : p.withOut f g = .ok p') : p.state ≠ .finalized := by
  intro he
  unfold P2pk.withOut at h
  rw [if_pos (by simp [he])] at h
  cases h

theorem signOp_nf {env : Env} {key : Bytes} {p p' : P2pk} {sub : UInt8} {data : Bytes}
    (h : signOp env key p sub data = .ok p') : p.state ≠ .finalized := by
  intro he
  unfold signOp at h
  split_ifs at h
  · unfold opStart at h
    split at h
    · cases h
    · simp [P2pk.startTx, he] at h
  · simp [P2pk.addTokens, he] at h
  · unfold opFrame at h
    dsimp only at h
    split_ifs at h
    split at h
    · cases h
    · split at h
      · simp [P2pk.addInputTokens, he] at h
      · simp [P2pk.addInput, he] at h
  · simp [P2pk.addExtension, he] at h
  · simp [P2pk.addDataInputs, he] at h
  · unfold opOutput at h
    split at h
    · cases h
    · simp [P2pk.addOutput, he] at h
  · exact withOut_nf h he
  · unfold opFee at h
    split_ifs at h
    exact withOut_nf h he
  · unfold opChange at h
    split at h
    · cases h
    · split_ifs at h
      split at h
      · cases h
      · exact withOut_nf h he
  · exact withOut_nf h he
  · exact withOut_nf h he

/-- Every accepted command of a session did fit. -/
theorem log_fits {env : Env} {nanoS : Bool} {key : Bytes} {tr : List Obs} {d : Device}
    (h : Runs env nanoS key tr d) {S : SignSess} (hS : (know tr).sign = some S) {l l' : List Entry}
    {sub : UInt8} {data : Bytes} (hl : S.log = l ++ .cmd sub data :: l') :
    0x10 ≤ sub ∧ sub ≤ 0x1A ∧ data.length ≤ 255 ∧ Fits env key (describe l) sub data := by
  obtain ⟨tr2, d1, tr1, x, p, p2, rnd, _, hd1, _, _, hS1, hR, hop, h1, h2, hlen⟩ := cmd_accepted h hS hl
  obtain ⟨_, _, _, _, _, _, _, _, _, hP, _⟩ := hR
  have hg := got_pos hd1 hS1
  exact ⟨h1, h2, hlen, (signOp_fits hP (signOp_nf hop) hg hlen key h1 h2).1 ⟨p, hop⟩⟩

/-- With an input the table is complete, and there are outputs only with inputs. -/
structure Fixed (D : TxDesc) : Prop where
  table : D.inputs ≠ [] → 0 < D.nIn ∧ D.table.length = D.nTok
  outs : D.outputs ≠ [] → D.inputs ≠ []

theorem onInput_nil {D : TxDesc} {f : InDesc → InDesc} : (D.onInput f).inputs = [] ↔ D.inputs = [] := by
  unfold TxDesc.onInput
  split <;> simp_all

theorem onOutput_nil {D : TxDesc} {f : BoxDesc Nat → BoxDesc Nat} :
    (D.onOutput f).outputs = [] ↔ D.outputs = [] := by
  unfold TxDesc.onOutput
  split <;> simp_all

theorem onInput_rest {D : TxDesc} {f : InDesc → InDesc} : (D.onInput f).outputs = D.outputs ∧
    (D.onInput f).table = D.table ∧ (D.onInput f).nIn = D.nIn ∧ (D.onInput f).nTok = D.nTok := by
  unfold TxDesc.onInput
  split <;> simp

theorem onOutput_rest {D : TxDesc} {f : BoxDesc Nat → BoxDesc Nat} : (D.onOutput f).inputs = D.inputs ∧
    (D.onOutput f).table = D.table ∧ (D.onOutput f).nIn = D.nIn ∧ (D.onOutput f).nTok = D.nTok := by
  unfold TxDesc.onOutput
  split <;> simp

theorem fixed_onInput {D : TxDesc} (h : Fixed D) (f : InDesc → InDesc) : Fixed (D.onInput f) := by
  obtain ⟨a, b, c, e⟩ := onInput_rest (D := D) (f := f)
  constructor
  · rw [Ne, onInput_nil, b, c, e]; exact h.table
  · rw [a, Ne, Ne, onInput_nil]; exact h.outs

theorem fixed_onOutput {D : TxDesc} (h : Fixed D) (f : BoxDesc Nat → BoxDesc Nat) : Fixed (D.onOutput f) := by
  obtain ⟨a, b, c, e⟩ := onOutput_rest (D := D) (f := f)
  constructor
  · rw [a, b, c, e]; exact h.table
  · rw [a, Ne, onOutput_nil]; exact h.outs

theorem fixed_step {env : Env} {key : Bytes} {D : TxDesc} {sub : UInt8} {data : Bytes} (h : Fixed D)
    (hf : Fits env key D sub data) : Fixed (D.step (.cmd sub data)) ∧
      (D.inputs ≠ [] → (D.step (.cmd sub data)).table = D.table ∧ (D.step (.cmd sub data)).inputs ≠ []) := by
  unfold Fits at hf
  unfold TxDesc.step
  by_cases e : sub = 0x10
  · simp only [if_pos e] at hf ⊢
    exact ⟨⟨by simp [TxDesc.empty], by simp [TxDesc.empty]⟩,
      fun hi => absurd (h.table hi).1 (by omega)⟩
  simp only [if_neg e] at hf ⊢
  obtain ⟨hn, hf⟩ := hf
  by_cases e : sub = 0x11
  · simp only [if_pos e] at hf ⊢
    have hi : D.inputs = [] := by
      by_contra hi
      have := (h.table hi).2
      omega
    exact ⟨⟨fun g => absurd hi g, h.outs⟩, fun g => absurd hi g⟩
  simp only [if_neg e] at hf ⊢
  by_cases e : sub = 0x12
  · simp only [if_pos e] at hf ⊢
    obtain ⟨_, _, _, h3, _, h4⟩ := hf
    unfold TxDesc.frame
    by_cases e0 : field data 33 1 = 0
    · simp only [if_pos e0]
      exact ⟨⟨fun _ => ⟨hn, h3⟩, fun _ => by simp⟩, fun _ => ⟨trivial, by simp⟩⟩
    · simp only [if_neg e0]
      exact ⟨fixed_onInput h _, fun g => ⟨onInput_rest.2.1, fun k => g (onInput_nil.1 k)⟩⟩
  simp only [if_neg e] at hf ⊢
  by_cases e : sub = 0x13
  · simp only [if_pos e]
    exact ⟨fixed_onInput h _, fun g => ⟨onInput_rest.2.1, fun k => g (onInput_nil.1 k)⟩⟩
  simp only [if_neg e] at hf ⊢
  by_cases e : sub = 0x14
  · simp only [if_pos e]
    exact ⟨⟨h.table, h.outs⟩, fun g => ⟨trivial, g⟩⟩
  simp only [if_neg e] at hf ⊢
  by_cases e : sub = 0x15
  · simp only [if_pos e] at hf ⊢
    refine ⟨⟨h.table, fun _ hi => ?_⟩, fun g => ⟨trivial, g⟩⟩
    have h1 := hf.1.1
    simp only at hi
    rw [hi] at h1
    simp at h1
    omega
  simp only [if_neg e]
  have ho : ∀ f, Fixed (D.onOutput f) ∧ (D.inputs ≠ [] → (D.onOutput f).table = D.table ∧
      (D.onOutput f).inputs ≠ []) := fun f =>
    ⟨fixed_onOutput h f, fun g => ⟨onOutput_rest.2.1, by rw [onOutput_rest.1]; exact g⟩⟩
  split_ifs
  all_goals first
    | exact ho _
    | exact ⟨h, fun g => ⟨rfl, g⟩⟩

theorem fixed_approve {D : TxDesc} (h : Fixed D) : Fixed (D.step .approve) ∧
    (D.step .approve).table = D.table ∧ (D.step .approve).inputs = D.inputs := by
  unfold TxDesc.step
  cases ho : D.outputs with
  | nil => simp only [ho]; exact ⟨h, trivial, trivial⟩
  | cons o os =>
    simp only [ho]
    exact ⟨⟨h.table, fun _ => h.outs (by rw [ho]; simp)⟩, trivial, trivial⟩

theorem log_fixed {env : Env} {nanoS : Bool} {key : Bytes} {tr : List Obs} {d : Device}
    (h : Runs env nanoS key tr d) {S : SignSess} (hS : (know tr).sign = some S) (l : List Entry) :
    ∀ l', S.log = l ++ l' → Fixed (describe l) := by
  induction l using List.reverseRecOn with
  | nil => intro _ _; exact ⟨fun h => absurd rfl h, fun h => absurd rfl h⟩
  | append_singleton l e ih =>
    intro l' hl
    rw [List.append_assoc] at hl
    have hi := ih _ hl
    rw [describe_append]
    cases e with
    | approve => exact (fixed_approve hi).1
    | cmd sub data => exact (fixed_step hi (log_fits h hS hl).2.2.2).1

/-- With an input, later commands leave the table as it is. -/
theorem log_table {env : Env} {nanoS : Bool} {key : Bytes} {tr : List Obs} {d : Device}
    (h : Runs env nanoS key tr d) {S : SignSess} (hS : (know tr).sign = some S) (l : List Entry)
    (hi : (describe l).inputs ≠ []) (m : List Entry) : ∀ l', S.log = l ++ m ++ l' →
      (describe (l ++ m)).table = (describe l).table ∧ (describe (l ++ m)).inputs ≠ [] := by
  induction m using List.reverseRecOn with
  | nil => intro _ _; simpa using hi
  | append_singleton m e ih =>
    intro l' hl
    have hl' : S.log = l ++ m ++ e :: l' := by rw [hl]; simp
    obtain ⟨h1, h2⟩ := ih _ hl'
    have hF := log_fixed h hS (l ++ m) _ hl'
    rw [← List.append_assoc, describe_append]
    cases e with
    | approve =>
      obtain ⟨_, a, b⟩ := fixed_approve hF
      rw [a, b]; exact ⟨h1, h2⟩
    | cmd sub data =>
      obtain ⟨a, b⟩ := (fixed_step hF (log_fits h hS hl').2.2.2).2 h2
      rw [a]; exact ⟨h1, b⟩

end Ergo
