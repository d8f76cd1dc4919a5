import Verif.Proof.FailingTx
import Verif.Proof.Faults
import Verif.Spec.CallFaults
/-!
# One event with failing calls
-/
namespace Ergo
open Calls Spec

variable {ok : Nat → Bool} {env : Env}

/-- The answer to a failed call that ends everything. -/
def Blanks (d : Device) (r : Device × Reply) : Prop := ∃ code, FaultCode code ∧ r = (blank d, .sw code [])

theorem blanks_abort {d : Device} (hs : d.screen = none) (c : Command) {sw : UInt16} (h : FaultCode sw) :
    Blanks d ((d.setCommand c).abort sw) := by
  refine ⟨sw, h, ?_⟩
  simp only [Device.abort, Device.setCommand, blank, hs, status]

theorem blanks_menu (d : Device) {sw : UInt16} (h : FaultCode sw) :
    Blanks d ((d.setCommand .none).menu, status sw) := ⟨sw, h, rfl⟩

theorem Device.yields_extPubKey {d : Device} (hs : d.screen = none) (data : Bytes) (t : Bool) :
    Yields ok (d.extPubKeyF env ok data t) (d.extPubKey env data t) (Blanks d) := by
  unfold Device.extPubKeyF Device.extPubKey
  by_cases h1 : d.busy = true
  · rw [if_pos h1, if_pos h1]; exact .ret _ _
  rw [if_neg h1, if_neg h1]
  dsimp only
  cases parsePathToken data t with
  | error e => exact .ret _ _
  | ok x =>
    obtain ⟨path, token⟩ := x
    dsimp only
    by_cases h2 : ¬ pathValidate path .accountGe3
    · rw [if_pos h2, if_pos h2]; exact .ret _ _
    rw [if_neg h2, if_neg h2]
    refine (yields_genPublic env path).map' rfl ?_
    rintro r rfl
    exact blanks_abort hs _ (.inr (.inl rfl))

/-- What a failed call of the address command may do. -/
def AddressFault (d : Device) (pure : Device × Reply) (r : Device × Reply) : Prop :=
  Blanks d r ∨
    (r = ({ d with command := .deriveAddress, ctx := .zeroed }, .sw 0xE016 []) ∧
      (pure.2 = .wait ∨ (∃ out, pure.2 = .sw 0x9000 out) ∨
        ∃ code, (code = 0xE101 ∨ code = 0xE102) ∧ pure.2 = .sw code []))

theorem Device.showAddress_reply (d : Device) (send : Bool) (token : UInt32) {path : List UInt32}
    (raw : Bytes) (hv : pathValidate path .addressGe5 = true) :
    (d.showAddress send token path raw).2 = .wait ∨
      ∃ code, (code = 0xE101 ∨ code = 0xE102) ∧ (d.showAddress send token path raw).2 = .sw code [] := by
  unfold Device.showAddress
  rw [if_neg (by simpa using hv)]
  cases pathFormat path bip32StrLen with
  | none => exact .inr ⟨_, .inl rfl, rfl⟩
  | some t =>
    dsimp only
    cases send with
    | true => exact .inl rfl
    | false =>
      simp only [Bool.false_eq_true, if_false]
      cases base58Encode raw addressStrLen with
      | none => exact .inr ⟨_, .inr rfl, rfl⟩
      | some a =>
        dsimp only
        split
        · exact .inr ⟨_, .inr rfl, rfl⟩
        · exact .inl rfl

theorem Device.yields_deriveAddress {d : Device} (hs : d.screen = none) (data : Bytes) (disp t : Bool) :
    Yields ok (d.deriveAddressF env ok data disp t) (d.deriveAddress env data disp t)
      (AddressFault d (d.deriveAddress env data disp t)) := by
  unfold Device.deriveAddressF Device.deriveAddress
  by_cases h1 : d.busy = true
  · rw [if_pos h1, if_pos h1]; exact .ret _ _
  rw [if_neg h1, if_neg h1]
  dsimp only
  cases bufU8 data with
  | none => exact .ret _ _
  | some x =>
    obtain ⟨network, data⟩ := x
    dsimp only
    cases parsePathToken data t with
    | error e => exact .ret _ _
    | ok x =>
      obtain ⟨path, token⟩ := x
      dsimp only
      by_cases h2 : ¬ pathValidate path .addressGe5
      · rw [if_pos h2, if_pos h2]; exact .ret _ _
      rw [if_neg h2, if_neg h2]
      refine (yields_genPublic env path).andThen ?_ ?_
      · cases env.genPublic path with
        | none => exact .ret _ _
        | some x =>
          obtain ⟨pub, chain⟩ := x
          dsimp only
          unfold addressFromPubkeyF addressFromPubkey
          by_cases hn : networkValid network = true
          · rw [if_pos hn, if_pos hn]
            refine (Yields.need (.ret _ (· = none)) rfl).map' rfl ?_
            rintro r rfl
            refine .inr ⟨?_, ?_⟩
            · simp only [Device.setCommand, status, Bool.eq_false_iff.2 h1]
              rfl
            · dsimp only
              by_cases hk : ¬ disp = true ∧ isKnown token (d.setCommand .deriveAddress).connectedApp = true
              · rw [if_pos hk]
                exact .inr (.inl ⟨_, rfl⟩)
              · rw [if_neg hk]
                rcases Device.showAddress_reply (d.setCommand .deriveAddress) (!disp) token
                  (withChecksum env ((1 + network) :: compress pub)) (by simpa using h2) with e | e
                · exact .inl e
                · exact .inr (.inr e)
          · rw [if_neg hn, if_neg hn]
            exact Yields.map' (.ret _ (fun _ => False)) rfl (by rintro r ⟨⟩)
      · rintro r rfl
        exact .ret (.inl (blanks_abort hs _ (.inr (.inl rfl))))

theorem Device.yields_attestResult {d : Device} (hs : d.screen = none) {m : Calls AttestRes}
    {a : AttestRes} (h : Yields ok m a AttestFault) :
    Yields ok (map d.attestResult m) (d.attestResult a) (Blanks d) := by
  refine h.map' rfl ?_
  rintro r ⟨sw, h1, rfl⟩
  exact ⟨sw, h1, abort_blank hs sw⟩

theorem Device.yields_attestSub {d : Device} (hs : d.screen = none) (sub session : UInt8) (data : Bytes) :
    Yields ok (d.attestSubF env ok sub session data) (d.attestSub env sub session data) (Blanks d) := by
  unfold Device.attestSubF Device.attestSub
  by_cases h1 : d.command ≠ .attestInput
  · rw [if_pos h1, if_pos h1]; exact .ret _ _
  rw [if_neg h1, if_neg h1]
  cases d.ctx with
  | attest x =>
    dsimp only
    split_ifs
    · exact .ret _ _
    · exact Device.yields_attestResult hs (x.yields_part env (x.st.yields_addTree attestCbs_good data))
    · exact Device.yields_attestResult hs (x.yields_part env (x.st.yields_addTokens attestCbs_good none data))
    · exact Device.yields_attestResult hs (x.yields_part env (x.st.yields_addRegisters attestCbs_good data))
    · exact .ret _ _
  | _ => exact .ret _ _

theorem Device.yields_attestStart {d : Device} (hs : d.screen = none) (data : Bytes) (t : Bool)
    (rnd : Rnd) : Yields ok (d.attestStartF ok data t rnd) (d.attestStart data t rnd) (Blanks d) := by
  unfold Device.attestStartF Device.attestStart
  refine (yields_attestInit data t 0).map' rfl ?_
  rintro r ⟨sw, h, rfl⟩
  exact blanks_abort hs _ h

theorem Device.yields_attestInput {d : Device} (hs : d.busy = false → d.screen = none) (sub p2 : UInt8)
    (data : Bytes) (rnd : Rnd) :
    Yields ok (d.attestInputF env ok sub p2 data rnd) (d.attestInput env sub p2 data rnd) (Blanks d) := by
  unfold Device.attestInputF Device.attestInput
  by_cases h1 : d.busy = true
  · rw [if_pos h1, if_pos h1]; exact .ret _ _
  have hs := hs (by simpa using h1)
  rw [if_neg h1, if_neg h1]
  split_ifs
  · exact .ret _ _
  · exact Device.yields_attestStart hs _ _ _
  · exact Device.yields_attestSub hs _ _ _
  · exact .ret _ _

/-- What a failed call at the start of signing may do. -/
def StartFault (d : Device) (pure : Nat → Device × Reply) (r : Device × Reply) : Prop :=
  Blanks d r ∨ ∃ i, r = pure i

/-- The random values with one draw repeated. -/
def Rnd.only (rnd : Rnd) (i : Nat) : Rnd := { rnd with keys := fun _ => rnd.keys i }

theorem Device.yields_signStart {d : Device} (hs : d.screen = none) (data : Bytes) (t : Bool) (rnd : Rnd) :
    Yields ok (d.signStartF env ok data t rnd) (d.signStart env data t rnd)
      (StartFault d (fun i => d.signStart env data t (rnd.only i))) := by
  unfold Device.signStartF Device.signStart
  dsimp only
  cases parseSignInit data t with
  | error e => exact .ret _ _
  | ok x =>
    obtain ⟨network, path, token⟩ := x
    dsimp only
    refine (yields_p2pkInit env path network rnd.keys).map' rfl ?_
    rintro r (⟨sw, h, rfl⟩ | ⟨i, rfl⟩)
    · exact .inl (blanks_abort hs _ h)
    · exact .inr ⟨i, rfl⟩

theorem Device.yields_signResult {d : Device} (hs : d.screen = none) (x : SignCtx) {m : Calls OpRes}
    {a : OpRes} (h : Yields ok m a OpFault) :
    Yields ok (map (d.signResult x) m) (d.signResult x a) (Blanks d) := by
  refine h.map' rfl ?_
  rintro r ⟨sw, h1, rfl⟩
  exact ⟨sw, h1, abort_blank hs sw⟩

theorem Device.yields_signShow {d : Device} (hs : d.screen = none) (x : SignCtx) {m : Calls OpRes}
    {a : OpRes} (h : Yields ok m a OpFault) :
    Yields ok (map (d.signShow x) m) (d.signShow x a) (Blanks d) := by
  refine h.map' rfl ?_
  rintro r ⟨sw, h1, rfl⟩
  exact ⟨sw, h1, abort_blank hs sw⟩

theorem yields_ite {α : Type} {c : Prop} [Decidable c] {m n : Calls α} {a b : α} {bad : α → Prop}
    (h : Yields ok m a bad) (h' : Yields ok n b bad) :
    Yields ok (if c then m else n) (if c then a else b) bad := by
  by_cases hc : c
  · rw [if_pos hc, if_pos hc]; exact h
  · rw [if_neg hc, if_neg hc]; exact h'

theorem Device.yields_signSub {d : Device} (hs : d.screen = none) (sub session : UInt8) (data : Bytes) :
    Yields ok (d.signSubF env ok sub session data) (d.signSub env sub session data) (Blanks d) := by
  unfold Device.signSubF Device.signSub
  refine yields_ite (.ret _ _) ?_
  cases d.ctx with
  | sign x =>
    dsimp only
    refine yields_ite (.ret _ _) (yields_ite (.ret _ _) ?_)
    refine yields_ite (Device.yields_signResult hs x (yields_opStart x.p data)) ?_
    refine yields_ite (.ret _ _) ?_
    refine yields_ite (Device.yields_signResult hs x (yields_opFrame env d.sessionKey x.p data)) ?_
    refine yields_ite (Device.yields_signResult hs x (x.p.yields_addExtension data)) ?_
    refine yields_ite (Device.yields_signResult hs x (x.p.yields_addDataInputs data)) ?_
    refine yields_ite (Device.yields_signResult hs x (yields_opOutput x.p data)) ?_
    refine yields_ite (Device.yields_signShow hs x (x.p.yields_addOutputTree env data)) ?_
    refine yields_ite (Device.yields_signShow hs x (yields_opFee env x.p data)) ?_
    refine yields_ite (Device.yields_signShow hs x (yields_opChange env x.p data)) ?_
    refine yields_ite (Device.yields_signShow hs x (x.p.yields_addOutputTokens env data)) ?_
    exact yields_ite (Device.yields_signShow hs x (x.p.yields_addOutputRegisters env data)) (.ret _ _)
  | _ => exact .ret _ _

theorem Device.yields_signTransaction {d : Device} (hs : d.busy = false → d.screen = none)
    (sub p2 : UInt8) (data : Bytes) (rnd : Rnd) :
    Yields ok (d.signTransactionF env ok sub p2 data rnd) (d.signTransaction env sub p2 data rnd)
      (StartFault d (fun i => d.signTransaction env sub p2 data (rnd.only i))) := by
  unfold Device.signTransactionF Device.signTransaction
  by_cases h1 : d.busy = true
  · rw [if_pos h1, if_pos h1]; exact .ret _ _
  have hs := hs (by simpa using h1)
  simp only [if_neg h1]
  split_ifs
  · exact .ret _ _
  · exact Device.yields_signStart hs _ _ _
  · exact (Device.yields_signSub hs _ _ _).mono (fun _ h => .inl h)
  · exact .ret _ _

theorem Device.yields_act (d : Device) (cb : Callback) (approved : Bool) :
    Yields ok (d.actF env ok cb approved) (d.act env cb approved) (Blanks d) := by
  unfold Device.actF
  split
  · rename_i x hx
    unfold Device.act
    rw [hx]
    dsimp only
    unfold Device.actSignTxF Device.actSignTx
    split_ifs
    · refine (x.p.yields_sendResponse env).map' rfl ?_
      rintro r ⟨sw, h, rfl⟩
      exact blanks_menu d h
    · exact .ret _ _
  · exact .ret _ _

/-- Drawing ends with the word of a failed call. -/
def ShowFault (r : ShowRes) : Prop := ∃ sw, FaultCode sw ∧ r = .err sw

theorem yields_printAddress (o : OutInfo) (network : UInt8) :
    Yields ok (printAddressF env ok o network) (printAddress env o network) ShowFault := by
  unfold printAddressF
  by_cases h1 : ¬ o.finished = true
  · rw [if_pos h1]; unfold printAddress; rw [if_pos h1]; exact .ret _ _
  rw [if_neg h1]
  cases ht : o.type with
  | address =>
    unfold printAddress
    rw [if_neg h1, ht]
    dsimp only
    cases o.data with
    | publicKey k =>
      refine (yields_addressFromCompressed env network k).map' rfl ?_
      rintro r rfl
      exact ⟨_, .inr (.inr (.inl rfl)), rfl⟩
    | _ => exact .ret _ _
  | script =>
    unfold printAddress
    rw [if_neg h1, ht]
    dsimp only
    cases o.data with
    | treeHash k =>
      refine (yields_addressFromScriptHash env network k).map' rfl ?_
      rintro r rfl
      exact ⟨_, .inr (.inr (.inl rfl)), rfl⟩
    | _ => exact .ret _ _
  | scriptHash =>
    unfold printAddress
    rw [if_neg h1, ht]
    dsimp only
    cases o.data with
    | treeHash k =>
      refine (yields_addressFromScriptHash env network k).map' rfl ?_
      rintro r rfl
      exact ⟨_, .inr (.inr (.inl rfl)), rfl⟩
    | _ => exact .ret _ _
  | unknown => exact .ret _ _
  | bip32 => exact .ret _ _
  | minersFee => exact .ret _ _

theorem yields_showOutput (nanoS : Bool) (o : OutInfo) (table : List Bytes) (network : UInt8) (k : Nat) :
    Yields ok (showOutputF env ok nanoS o table network k) (showOutput env nanoS o table network k)
      ShowFault := by
  cases k with
  | zero => exact yields_printAddress o network
  | succ k => exact .ret _ _

theorem Device.yields_show (nanoS : Bool) (d : Device) (cb : Callback) (k : Nat) :
    Yields ok (d.showF env ok nanoS cb k) (d.show env nanoS cb k) ShowFault := by
  unfold Device.showF
  split
  · rename_i x hx
    unfold Device.show
    rw [hx]
    dsimp only
    cases x.p.u with
    | transaction t =>
      dsimp only
      cases t.out with
      | none => exact .ret _ _
      | some o => exact yields_showOutput nanoS o _ _ k
    | _ => exact .ret _ _
  · exact .ret _ _

theorem Device.yields_move (nanoS : Bool) (d : Device) (s : Screen) (m : Move) :
    Yields ok (d.moveF env ok nanoS s m) (d.move env nanoS s m) (Blanks d) := by
  unfold Device.moveF Device.move
  dsimp only
  cases m.draw with
  | none => exact .ret _ _
  | some k =>
    refine (d.yields_show nanoS s.cb k).map' rfl ?_
    rintro r ⟨sw, h, rfl⟩
    exact blanks_menu d h

theorem Device.yields_both (d : Device) (s : Screen) :
    Yields ok (d.bothF env ok s) (d.both env s) (Blanks d) := by
  unfold Device.bothF Device.both
  cases s.flow.here with
  | approve => exact d.yields_act _ _
  | reject => exact d.yields_act _ _
  | pathApprove p => exact d.yields_act _ _
  | _ => exact .ret _ _

/-- What a failed call may do to an event. -/
def StepFault (env : Env) (nanoS : Bool) (d : Device) (e : Event) (r : Device × Reply) : Prop :=
  Blanks d r ∨
  (∃ p1 p2 data rnd, e = .apdu 0xE0 0x11 p1 p2 data rnd ∧
    r = ({ d with command := .deriveAddress, ctx := .zeroed }, .sw 0xE016 []) ∧
    ((d.step env nanoS e).2 = .wait ∨ (∃ out, (d.step env nanoS e).2 = .sw 0x9000 out) ∨
      ∃ code, (code = 0xE101 ∨ code = 0xE102) ∧ (d.step env nanoS e).2 = .sw code [])) ∨
  ∃ p2 data rnd i, e = .apdu 0xE0 0x21 0x01 p2 data rnd ∧
    r = d.step env nanoS (.apdu 0xE0 0x21 0x01 p2 data (rnd.only i))

theorem Device.yields_step {d : Device} (hs : d.busy = false → d.screen = none) (nanoS : Bool) (e : Event) :
    Yields ok (d.stepF env ok nanoS e) (d.step env nanoS e) (StepFault env nanoS d e) := by
  cases e with
  | left =>
    simp only [Device.stepF, Device.step]
    cases d.screen with
    | none => exact .ret _ _
    | some s => exact (d.yields_move nanoS s _).mono (fun _ h => .inl h)
  | right =>
    simp only [Device.stepF, Device.step]
    cases d.screen with
    | none => exact .ret _ _
    | some s => exact (d.yields_move nanoS s _).mono (fun _ h => .inl h)
  | both =>
    simp only [Device.stepF, Device.step]
    cases d.screen with
    | none => exact .ret _ _
    | some s => exact (d.yields_both s).mono (fun _ h => .inl h)
  | apdu cla ins p1 p2 data rnd =>
    simp only [Device.stepF, Device.step]
    by_cases hl : data.length > 255
    · rw [if_pos hl, if_pos hl]; exact .ret _ _
    rw [if_neg hl, if_neg hl]
    unfold Device.dispatchF Device.dispatch
    by_cases h0 : cla ≠ 0xE0
    · rw [if_pos h0, if_pos h0]; exact .ret _ _
    rw [if_neg h0, if_neg h0]
    have h0 : cla = 0xE0 := by simpa using h0
    subst h0
    by_cases h1 : ins = 0x01
    · rw [if_pos h1, if_pos h1]
      split_ifs <;> exact .ret _ _
    rw [if_neg h1, if_neg h1]
    by_cases h2 : ins = 0x02
    · rw [if_pos h2, if_pos h2]
      split_ifs <;> exact .ret _ _
    rw [if_neg h2, if_neg h2]
    by_cases h3 : ins = 0x10
    · rw [if_pos h3, if_pos h3]
      split_ifs
      · exact .ret _ _
      · by_cases hb : d.busy = true
        · unfold Device.extPubKeyF Device.extPubKey
          rw [if_pos hb, if_pos hb]
          exact .ret _ _
        · exact (Device.yields_extPubKey (hs (by simpa using hb)) _ _).mono (fun _ h => .inl h)
    rw [if_neg h3, if_neg h3]
    by_cases h4 : ins = 0x11
    · subst h4
      rw [if_pos rfl, if_pos rfl]
      by_cases hp : p1 = 0 ∨ p1 > 2 ∨ p2 = 0 ∨ p2 > 2
      · rw [if_pos hp, if_pos hp]; exact .ret _ _
      rw [if_neg hp, if_neg hp]
      by_cases hb : d.busy = true
      · unfold Device.deriveAddressF Device.deriveAddress
        rw [if_pos hb, if_pos hb]
        exact .ret _ _
      · refine (Device.yields_deriveAddress (hs (by simpa using hb)) _ _ _).mono ?_
        rintro r (h | ⟨h, hp'⟩)
        · exact .inl h
        · refine .inr (.inl ⟨p1, p2, data, rnd, rfl, h, ?_⟩)
          rw [step_address, if_neg hl, if_neg hp]
          exact hp'
    rw [if_neg h4, if_neg h4]
    by_cases h5 : ins = 0x20
    · rw [if_pos h5, if_pos h5]
      split_ifs
      · exact .ret _ _
      · exact (Device.yields_attestInput hs _ _ _ _).mono (fun _ h => .inl h)
    rw [if_neg h5, if_neg h5]
    by_cases h6 : ins = 0x21
    · subst h6
      rw [if_pos rfl, if_pos rfl]
      by_cases hp : p1 = 0 ∨ p2 = 0
      · rw [if_pos hp, if_pos hp]; exact .ret _ _
      rw [if_neg hp, if_neg hp]
      by_cases h7 : p1 = 0x01
      · subst h7
        refine (Device.yields_signTransaction hs _ _ _ _).mono ?_
        rintro r (h | ⟨i, h⟩)
        · exact .inl h
        · refine .inr (.inr ⟨p2, data, rnd, i, rfl, ?_⟩)
          rw [h]
          simp only [Device.step]
          rw [if_neg hl]
          unfold Device.dispatch
          simp only [ne_eq, not_true_eq_false, if_false, h1, h2, h3, h4, h5, if_true, if_neg hp]
      · refine Yields.mono (bad := Blanks d) ?_ (fun _ h => .inl h)
        unfold Device.signTransactionF Device.signTransaction
        by_cases hb : d.busy = true
        · rw [if_pos hb, if_pos hb]; exact .ret _ _
        rw [if_neg hb, if_neg hb, if_neg h7, if_neg h7]
        split_ifs
        · exact Device.yields_signSub (hs (by simpa using hb)) _ _ _
        · exact .ret _ _
    rw [if_neg h6, if_neg h6]
    exact .ret _ _

end Ergo
