import Verif.Model.Panel
import Verif.Proof.Start
import Verif.Proof.Inv
/-!
# What the commands write to the array of screens
-/
namespace Ergo

/-- The two answers in the order in which they are written. -/
def answersIn (order : Bool) : List FlowStep := if order then [.approve, .reject] else [.reject, .approve]

/-- Nothing was asked: the array is as before, except that the first entry may have become the first
screen of a question that was not put because the path is too long for the screen. -/
def NotAsked (a : List Slot) (r : Device × Reply) (w : Painted) : Prop :=
  w.out = .none ∧ r.2 ≠ .wait ∧ w.slots.length = 9 ∧ w.slots.drop 1 = a.drop 1 ∧
    (w.slots = a ∨ r.2 = status Sw.bip32FormattingFailed ∧ ∃ t, (t = Title.extPubKeyExport ∨
      t = .confirmSendAddress ∨ t = .confirmAddress) ∧
      w.slots = .step (.info ⟨t, .nothing⟩) :: a.drop 1)

/-- A question was put: the array starts with its steps, the answers and the two markers. -/
def Asked (order : Bool) (r : Device × Reply) (w : Painted) : Prop :=
  r.2 = .wait ∧ ∃ f cb l, r.1.screen = some ⟨f, cb⟩ ∧ f.idx = 0 ∧ f.cur = none ∧
    w.out = .shown f.count ∧ w.slots.length = 9 ∧ f.steps = l ++ [.approve, .reject] ∧
    w.slots.take (l.length + 4) = (l ++ answersIn order).map .step ++ [.loop, .stop]

/-- One of the two. -/
def Puts (order : Bool) (a : List Slot) (r : Device × Reply) (w : Painted) : Prop :=
  NotAsked a r w ∨ Asked order r w

theorem Puts.same {order : Bool} {a : List Slot} {r : Device × Reply} (h : a.length = 9)
    (hr : r.2 ≠ .wait) : Puts order a r ⟨a, .none⟩ :=
  .inl ⟨rfl, hr, h, rfl, .inl rfl⟩

theorem nine {a : List Slot} (h : a.length = 9) :
    ∃ a0 a1 a2 a3 a4 a5 a6 a7 a8, a = [a0, a1, a2, a3, a4, a5, a6, a7, a8] := by
  match a, h with
  | [a0, a1, a2, a3, a4, a5, a6, a7, a8], _ => exact ⟨a0, a1, a2, a3, a4, a5, a6, a7, a8, rfl⟩

theorem status_ne_wait (sw : UInt16) : status sw ≠ .wait := by simp [status]
theorem abort_ne_wait (d : Device) (sw : UInt16) : (d.abort sw).2 ≠ .wait := status_ne_wait sw

section
variable {order : Bool} {env : Env} {d : Device} {a : List Slot}

theorem paintExtPubKey_puts (ha : a.length = 9) (data : Bytes) (t : Bool) :
    Puts order a (d.extPubKey env data t) (d.paintExtPubKey order env data t a) := by
  unfold Device.extPubKey Device.paintExtPubKey
  by_cases hb : d.busy = true
  · rw [if_pos hb, if_pos hb]; exact .same ha (status_ne_wait _)
  rw [if_neg hb, if_neg hb]
  cases parsePathToken data t with
  | error e => exact .same ha (status_ne_wait _)
  | ok v =>
    obtain ⟨path, token⟩ := v
    simp only
    by_cases hv : ¬ pathValidate path .accountGe3 = true
    · rw [if_pos hv, if_pos hv]; exact .same ha (status_ne_wait _)
    rw [if_neg hv, if_neg hv]
    cases env.genPublic path with
    | none => exact .same ha (status_ne_wait _)
    | some v =>
      obtain ⟨pub, chain⟩ := v
      have hca : (d.setCommand .extPubKey).connectedApp = d.connectedApp := rfl
      simp only [hca]
      by_cases hk : isKnown token d.connectedApp = true
      · rw [if_pos hk, if_pos hk]; exact .same ha (by simp)
      rw [if_neg hk, if_neg hk]
      obtain ⟨a0, a1, a2, a3, a4, a5, a6, a7, a8, rfl⟩ := nine ha
      unfold paintAccount
      cases hf : pathFormat path bip32StrLen with
      | none =>
        left
        refine ⟨rfl, status_ne_wait _, rfl, rfl, .inr ⟨rfl, _, .inl rfl, rfl⟩⟩
      | some s =>
        right
        by_cases h0 : token = 0
        · subst h0
          refine ⟨rfl, _, _, epkSteps s 0, rfl, rfl, rfl, ?_, ?_, rfl, ?_⟩ <;> cases order <;> rfl
        · have e : epkSteps s token = [.info ⟨.extPubKeyExport, .nothing⟩, .info ⟨.path, .text s⟩, appIdPage token] := by
            simp [epkSteps, h0]
          refine ⟨rfl, _, _, epkSteps s token, rfl, rfl, rfl, ?_, ?_, rfl, ?_⟩ <;> cases order <;>
            simp only [Option.bind_some, Screens.addApp, if_pos h0, ne_eq, e,
              Screens.add, Screens.store] <;> rfl

theorem paintAddress_puts (hwf : env.WF) (ha : a.length = 9) {send : Bool} {token : UInt32}
    {path : List UInt32} {raw pub : Bytes} {n : UInt8} (hr : addressFromPubkey env n pub = some raw) :
    Puts order a (d.showAddress send token path raw) (paintAddress order send token path raw a) := by
  have hraw : raw.length ≤ 38 := by
    unfold addressFromPubkey at hr
    split at hr
    · cases hr
      have := hwf.blake_len ((1 + n) :: compress pub)
      simp only [withChecksum, compress, List.length_append, List.length_cons, List.length_take,
        List.length_drop] at this ⊢
      omega
    · cases hr
  unfold Device.showAddress paintAddress
  by_cases hv : ¬ pathValidate path .addressGe5 = true
  · rw [if_pos hv, if_pos hv]; exact .same ha (status_ne_wait _)
  rw [if_neg hv, if_neg hv]
  obtain ⟨a0, a1, a2, a3, a4, a5, a6, a7, a8, rfl⟩ := nine ha
  cases hf : pathFormat path bip32StrLen with
  | none =>
    left
    cases send
    · exact ⟨rfl, status_ne_wait _, rfl, rfl, .inr ⟨rfl, _, .inr (.inr rfl), rfl⟩⟩
    · exact ⟨rfl, status_ne_wait _, rfl, rfl, .inr ⟨rfl, _, .inr (.inl rfl), rfl⟩⟩
  | some s =>
    right
    cases send with
    | true =>
      by_cases h0 : token = 0
      · subst h0
        refine ⟨rfl, _, _, daSendSteps s 0, rfl, rfl, rfl, ?_, ?_, rfl, ?_⟩ <;> cases order <;> rfl
      · have e : daSendSteps s token = [.info ⟨.confirmSendAddress, .nothing⟩,
            .info ⟨.path, .text s⟩, appIdPage token] := by simp [daSendSteps, h0]
        refine ⟨rfl, _, _, daSendSteps s token, rfl, rfl, rfl, ?_, ?_, rfl, ?_⟩ <;> cases order <;>
          simp only [if_true, Screens.addApp, if_pos h0, ne_eq, e,
            Screens.add, Screens.store] <;> rfl
    | false =>
      obtain ⟨x, hx, _, hx2⟩ := C37_address_fits raw addressStrLen hraw (by decide)
      have hlen : ¬ x.length ≥ addressStrLen := by unfold addressStrLen; omega
      simp only [Bool.false_eq_true, if_false, hx]
      rw [if_neg hlen]
      by_cases h0 : token = 0
      · subst h0
        refine ⟨rfl, _, _, daShowSteps s x 0, rfl, rfl, rfl, ?_, ?_, rfl, ?_⟩ <;> cases order <;>
          simp only [if_neg hlen, Screens.add, Screens.store] <;> rfl
      · have e : daShowSteps s x token = [.info ⟨.confirmAddress, .nothing⟩,
            .info ⟨.path, .text s⟩, .info ⟨.address, .text x⟩, appIdPage token] := by
          simp [daShowSteps, h0]
        refine ⟨rfl, _, _, daShowSteps s x token, rfl, rfl, rfl, ?_, ?_, rfl, ?_⟩ <;> cases order <;>
          simp only [if_neg hlen, Option.bind_some, Screens.addApp, if_pos h0, ne_eq, e,
            Screens.add, Screens.store] <;> rfl

theorem paintDerive_puts (hwf : env.WF) (ha : a.length = 9) (data : Bytes) (disp t : Bool) :
    Puts order a (d.deriveAddress env data disp t) (d.paintDerive order env data disp t a) := by
  unfold Device.deriveAddress Device.paintDerive
  by_cases hb : d.busy = true
  · rw [if_pos hb, if_pos hb]; exact .same ha (status_ne_wait _)
  rw [if_neg hb, if_neg hb]
  cases bufU8 data with
  | none => exact .same ha (status_ne_wait _)
  | some v =>
    obtain ⟨network, data⟩ := v
    simp only
    cases parsePathToken data t with
    | error e => exact .same ha (status_ne_wait _)
    | ok v =>
      obtain ⟨path, token⟩ := v
      simp only
      by_cases hv : ¬ pathValidate path .addressGe5 = true
      · rw [if_pos hv, if_pos hv]; exact .same ha (status_ne_wait _)
      rw [if_neg hv, if_neg hv]
      cases env.genPublic path with
      | none => exact .same ha (status_ne_wait _)
      | some v =>
        obtain ⟨pub, chain⟩ := v
        simp only
        cases hr : addressFromPubkey env network pub with
        | none => exact .same ha (status_ne_wait _)
        | some raw =>
          have hca : (d.setCommand .deriveAddress).connectedApp = d.connectedApp := rfl
          simp only [hca]
          by_cases hk : ¬ disp = true ∧ isKnown token d.connectedApp = true
          · rw [if_pos hk, if_pos hk]; exact .same ha (by simp)
          rw [if_neg hk, if_neg hk]
          exact paintAddress_puts hwf ha hr

theorem attestResult_ne_wait (x : AttestRes) : (d.attestResult x).2 ≠ .wait := by
  cases x <;> simp [Device.attestResult, Device.abort, status]

theorem attestSub_ne_wait (sub p2 : UInt8) (data : Bytes) :
    (d.attestSub env sub p2 data).2 ≠ .wait := by
  unfold Device.attestSub
  split
  · exact abort_ne_wait _ _
  split
  · split
    · exact abort_ne_wait _ _
    split
    · exact attestResult_ne_wait _
    split
    · exact attestResult_ne_wait _
    split
    · exact attestResult_ne_wait _
    · exact attestResult_ne_wait _
  · simp

theorem paintAttestInput_puts (ha : a.length = 9) (sub p2 : UInt8) (data : Bytes) (rnd : Rnd) :
    Puts order a (d.attestInput env sub p2 data rnd) (d.paintAttestInput order sub p2 data rnd a) := by
  unfold Device.attestInput Device.paintAttestInput
  by_cases hb : d.busy = true
  · rw [if_pos hb, if_pos hb]; exact .same ha (status_ne_wait _)
  rw [if_neg hb, if_neg hb]
  by_cases hs : sub = 0x01
  · rw [if_pos hs, if_pos hs]
    by_cases hp : p2 ≠ 0x01 ∧ p2 ≠ 0x02
    · rw [if_pos hp, if_pos hp]; exact .same ha (status_ne_wait _)
    rw [if_neg hp, if_neg hp]
    unfold Device.attestStart
    cases attestInit data (p2 = 0x02) 0 with
    | error e => exact .same ha (status_ne_wait _)
    | ok x =>
      simp only
      cases newSession 0 rnd.u8s with
      | none => exact .same ha (by simp)
      | some i =>
        have hca : (d.setCommand .attestInput).connectedApp = d.connectedApp := rfl
        simp only [hca]
        by_cases hk : isKnown d.connectedApp x.token = true
        · rw [if_pos hk, if_pos hk]; exact .same ha (by simp)
        rw [if_neg hk, if_neg hk]
        obtain ⟨a0, a1, a2, a3, a4, a5, a6, a7, a8, rfl⟩ := nine ha
        right
        unfold paintAttest
        generalize x.token = token
        by_cases h0 : token = 0
        · subst h0
          refine ⟨rfl, _, _, attestSteps 0, rfl, rfl, rfl, ?_, ?_, rfl, ?_⟩ <;> cases order <;> rfl
        · have e : attestSteps token = [.info ⟨.confirmAttest, .nothing⟩, appIdPage token] := by
            simp [attestSteps, h0]
          refine ⟨rfl, _, _, attestSteps token, rfl, rfl, rfl, ?_, ?_, rfl, ?_⟩ <;> cases order <;>
            simp only [Option.bind_some, Option.map_some, Screens.addApp, if_pos h0, ne_eq, e,
              Screens.add, Screens.store] <;> rfl
  · rw [if_neg hs, if_neg hs]
    split
    · exact .same ha (attestSub_ne_wait _ _ _)
    · exact .same ha (abort_ne_wait _ _)

theorem paintSignInit_puts (ha : a.length = 9) (p2 : UInt8) (data : Bytes) (rnd : Rnd) :
    Puts order a (d.signStart env data (p2 = 0x02) rnd)
      (match parseSignInit data (p2 = 0x02) with
      | .error _ => ⟨a, .none⟩
      | .ok (network, path, token) =>
        match p2pkInit env path network rnd.keys with
        | .err _ => ⟨a, .none⟩
        | .ub => ⟨a, .none⟩
        | .ok _ =>
          match newSession 0 rnd.u8s with
          | none => ⟨a, .none⟩
          | some _ => paintSignInit order (isKnown d.connectedApp token) path token a) := by
  unfold Device.signStart
  cases parseSignInit data (p2 = 0x02) with
  | error e => exact .same ha (status_ne_wait _)
  | ok v =>
    obtain ⟨network, path, token⟩ := v
    simp only
    cases p2pkInit env path network rnd.keys with
    | err e => exact .same ha (status_ne_wait _)
    | ub => exact .same ha (by simp)
    | ok p =>
      simp only
      cases newSession 0 rnd.u8s with
      | none => exact .same ha (by simp)
      | some i =>
        have hca : (d.setCommand .signTransaction).connectedApp = d.connectedApp := rfl
        simp only [hca]
        unfold paintSignInit
        cases pathFormat path bip32StrLen with
        | none => exact .same ha (status_ne_wait _)
        | some s =>
          obtain ⟨a0, a1, a2, a3, a4, a5, a6, a7, a8, rfl⟩ := nine ha
          right
          cases hk : isKnown d.connectedApp token with
          | true =>
            refine ⟨rfl, _, _, [.pathApprove ⟨.p2pkSigning, .text s⟩], rfl, rfl, rfl, ?_, ?_, ?_, ?_⟩ <;>
              cases order <;> rfl
          | false =>
            refine ⟨rfl, _, _, [.pathApprove ⟨.p2pkSigning, .text s⟩, appIdPage token],
              rfl, rfl, rfl, ?_, ?_, ?_, ?_⟩ <;> cases order <;> rfl

/-- The dynamic flows, when the number of screens is not 255. -/
theorem paintDynamic_puts (ha : a.length = 9) (intro : Page) (n : Nat) (h0 : 0 < n) (h1 : n < 255)
    (cb : Callback) : Puts order a (d.display (.dynamic intro n) cb, .wait)
      (paintDynamic order intro (UInt8.ofNat n) a) := by
  obtain ⟨a0, a1, a2, a3, a4, a5, a6, a7, a8, rfl⟩ := nine ha
  right
  have hn : (UInt8.ofNat n).toNat = n := by
    rw [UInt8.toNat_ofNat']; exact Nat.mod_eq_of_lt (by omega)
  have e0 : ¬ (UInt8.ofNat n = 0 ∨ UInt8.ofNat n = 0xFF) := by
    rintro (h | h) <;> rw [h] at hn <;> simp at hn <;> omega
  refine ⟨rfl, _, _, [.info intro, .upper, .dyn, .lower], rfl, rfl, rfl, ?_, ?_, rfl, ?_⟩ <;>
    cases order <;> simp only [paintDynamic, Screens.add, Screens.store, Screens.addDynamic] <;>
    simp [maxScreens, e0, Screens.finishSign, Screens.approveReject, Screens.next, Screens.store,
      Screens.display, Flow.dynamic, answersIn, hn]

theorem u8_output (k : Nat) : (1 + (1 + 2 * UInt8.ofNat k) : UInt8) = UInt8.ofNat (1 + (1 + 2 * k)) := by
  rw [UInt8.ofNat_add, UInt8.ofNat_add, UInt8.ofNat_mul]; rfl

theorem u8_tx (k : Nat) : (1 + 2 + 2 * UInt8.ofNat k : UInt8) = UInt8.ofNat (1 + 2 + 2 * k) := by
  rw [UInt8.ofNat_add, UInt8.ofNat_mul]; rfl

theorem paintOutput_puts (ha : a.length = 9) (x : SignCtx) (res : OpRes)
    (hc : ∀ s, (d.signShow x res).1.screen = some s → s.flow.count < 255) :
    Puts order a (d.signShow x res) (paintOutput order a res) := by
  cases res with
  | err e => exact .same ha (status_ne_wait _)
  | ub => exact .same ha (by simp [Device.signShow])
  | ok p =>
    unfold Device.signShow paintOutput at *
    simp only at hc ⊢
    cases hs : p.shouldShow with
    | none => simp only; exact .same ha (by simp)
    | some b =>
      cases b with
      | false => simp only; exact .same ha (by simp [status])
      | true =>
        rw [hs] at hc
        cases hu : p.u with
        | transaction t =>
          rw [hu] at hc
          simp only at hc ⊢
          cases ho : t.out with
          | none => simp only; exact .same ha (by simp)
          | some o =>
            rw [ho] at hc
            simp only at hc ⊢
            have hcount := hc _ rfl
            have e : (if o.type ≠ .bip32 then 1 + (1 + 2 * UInt8.ofNat o.usedCount) else 1 : UInt8) =
                UInt8.ofNat (outputScreenCount o) := by
              unfold outputScreenCount
              split
              · rw [u8_output]
              · rfl
            rw [e]
            exact paintDynamic_puts ha _ _ (outputScreenCount_pos o) hcount _
        | _ => simp only; exact .same ha (by simp)

theorem signResult_ne_wait (x : SignCtx) (r : OpRes) : (d.signResult x r).2 ≠ .wait := by
  cases r <;> simp [Device.signResult, Device.abort, status]

theorem paintSign_puts (ha : a.length = 9) (sub p2 : UInt8) (data : Bytes) (rnd : Rnd)
    (hc : ∀ s, (d.signTransaction env sub p2 data rnd).1.screen = some s →
      d.busy = false → s.flow.count < 255) :
    Puts order a (d.signTransaction env sub p2 data rnd)
      (d.paintSign order env sub p2 data rnd a) := by
  unfold Device.signTransaction Device.paintSign at *
  by_cases hb : d.busy = true
  · rw [if_pos hb, if_pos hb]; exact .same ha (status_ne_wait _)
  rw [if_neg hb] at hc ⊢
  rw [if_neg hb]
  have hb' : d.busy = false := by simpa using hb
  by_cases hs : sub = 0x01
  · rw [if_pos hs, if_pos hs]
    by_cases hp : p2 ≠ 0x01 ∧ p2 ≠ 0x02
    · rw [if_pos hp, if_pos hp]; exact .same ha (status_ne_wait _)
    rw [if_neg hp, if_neg hp]
    exact paintSignInit_puts ha p2 data rnd
  rw [if_neg hs] at hc ⊢
  rw [if_neg hs]
  by_cases hr : (0x10 ≤ sub ∧ sub ≤ 0x1A) ∨ sub = 0x20
  swap
  · rw [if_neg hr, if_neg hr]; exact .same ha (status_ne_wait _)
  rw [if_pos hr] at hc ⊢
  rw [if_pos hr]
  unfold Device.signSub at *
  by_cases hcm : d.command ≠ .signTransaction
  · rw [if_pos hcm, if_pos hcm]; exact .same ha (status_ne_wait _)
  rw [if_neg hcm] at hc ⊢
  rw [if_neg hcm]
  cases hx : d.ctx with
  | sign x =>
    rw [hx] at hc
    simp only at hc ⊢
    by_cases h1 : p2 ≠ x.session
    · rw [if_pos h1, if_pos h1]; exact .same ha (status_ne_wait _)
    rw [if_neg h1] at hc ⊢
    rw [if_neg h1]
    by_cases h2 : ¬ x.approved = true
    · rw [if_pos h2, if_pos h2]; exact .same ha (status_ne_wait _)
    rw [if_neg h2] at hc ⊢
    rw [if_neg h2]
    by_cases g0 : sub = 0x10
    · rw [if_pos g0, if_pos (by simp [g0])]; exact .same ha (signResult_ne_wait _ _)
    rw [if_neg g0] at hc ⊢
    by_cases g1 : sub = 0x11
    · rw [if_pos g1, if_pos (by simp [g1])]; exact .same ha (signResult_ne_wait _ _)
    rw [if_neg g1] at hc ⊢
    by_cases g2 : sub = 0x12
    · rw [if_pos g2, if_pos (by simp [g2])]; exact .same ha (signResult_ne_wait _ _)
    rw [if_neg g2] at hc ⊢
    by_cases g3 : sub = 0x13
    · rw [if_pos g3, if_pos (by simp [g3])]; exact .same ha (signResult_ne_wait _ _)
    rw [if_neg g3] at hc ⊢
    by_cases g4 : sub = 0x14
    · rw [if_pos g4, if_pos (by simp [g4])]; exact .same ha (signResult_ne_wait _ _)
    rw [if_neg g4] at hc ⊢
    by_cases g5 : sub = 0x15
    · rw [if_pos g5, if_pos (by simp [g5])]; exact .same ha (signResult_ne_wait _ _)
    rw [if_neg g5] at hc ⊢
    rw [if_neg (show ¬ (sub = 0x10 ∨ sub = 0x11 ∨ sub = 0x12 ∨ sub = 0x13 ∨ sub = 0x14 ∨ sub = 0x15) by
      simp [g0, g1, g2, g3, g4, g5])]
    by_cases g6 : sub = 0x16
    · rw [if_pos g6] at hc ⊢; rw [if_pos g6]
      exact paintOutput_puts ha _ _ (fun s h => hc s h hb')
    rw [if_neg g6] at hc ⊢; rw [if_neg g6]
    by_cases g7 : sub = 0x17
    · rw [if_pos g7] at hc ⊢; rw [if_pos g7]
      exact paintOutput_puts ha _ _ (fun s h => hc s h hb')
    rw [if_neg g7] at hc ⊢; rw [if_neg g7]
    by_cases g8 : sub = 0x18
    · rw [if_pos g8] at hc ⊢; rw [if_pos g8]
      exact paintOutput_puts ha _ _ (fun s h => hc s h hb')
    rw [if_neg g8] at hc ⊢; rw [if_neg g8]
    by_cases g9 : sub = 0x19
    · rw [if_pos g9] at hc ⊢; rw [if_pos g9]
      exact paintOutput_puts ha _ _ (fun s h => hc s h hb')
    rw [if_neg g9] at hc ⊢; rw [if_neg g9]
    by_cases gA : sub = 0x1A
    · rw [if_pos gA] at hc ⊢; rw [if_pos gA]
      exact paintOutput_puts ha _ _ (fun s h => hc s h hb')
    rw [if_neg gA] at hc ⊢; rw [if_neg gA]
    unfold Device.signConfirm at *
    by_cases hf : x.p.state ≠ .txFinished
    · rw [if_pos hf, if_pos hf]; exact .same ha (status_ne_wait _)
    rw [if_neg hf] at hc ⊢
    rw [if_neg hf]
    have hcount := hc _ rfl hb'
    rw [u8_tx]
    exact paintDynamic_puts ha _ _ (txScreenCount_pos x.p.amounts) hcount _
  | _ => simp only; exact .same ha (by simp)

/-- Every command: it asks nothing, or puts its question in the array. -/
theorem paint_puts {nanoS : Bool} (hwf : env.WF) (ha : a.length = 9) (cla ins p1 p2 : UInt8)
    (data : Bytes) (rnd : Rnd)
    (hc : ∀ s, (d.step env nanoS (.apdu cla ins p1 p2 data rnd)).1.screen = some s →
      d.busy = false → s.flow.count < 255) :
    Puts order a (d.step env nanoS (.apdu cla ins p1 p2 data rnd))
      (d.paint order env cla ins p1 p2 data rnd a) := by
  unfold Device.step Device.dispatch Device.paint at *
  simp only at hc ⊢
  by_cases h0 : data.length > 255
  · rw [if_pos h0, if_pos h0]; exact .same ha (status_ne_wait _)
  rw [if_neg h0] at hc ⊢; rw [if_neg h0]
  by_cases h1 : cla ≠ 0xE0
  · rw [if_pos h1, if_pos h1]; exact .same ha (status_ne_wait _)
  rw [if_neg h1] at hc ⊢; rw [if_neg h1]
  by_cases i1 : ins = 0x01
  · subst i1
    rw [if_pos rfl]
    simp only [show ((0x01 : UInt8) = 0x10) = False by decide, show ((0x01 : UInt8) = 0x11) = False by decide,
      show ((0x01 : UInt8) = 0x20) = False by decide, show ((0x01 : UInt8) = 0x21) = False by decide, if_false]
    split <;> exact .same ha (by simp [status])
  rw [if_neg i1] at hc ⊢
  by_cases i2 : ins = 0x02
  · subst i2
    rw [if_pos rfl]
    simp only [show ((0x02 : UInt8) = 0x10) = False by decide, show ((0x02 : UInt8) = 0x11) = False by decide,
      show ((0x02 : UInt8) = 0x20) = False by decide, show ((0x02 : UInt8) = 0x21) = False by decide, if_false]
    split <;> exact .same ha (by simp [status])
  rw [if_neg i2] at hc ⊢
  by_cases i3 : ins = 0x10
  · rw [if_pos i3, if_pos i3]
    split
    · exact .same ha (status_ne_wait _)
    · exact paintExtPubKey_puts ha _ _
  rw [if_neg i3] at hc ⊢; rw [if_neg i3]
  by_cases i4 : ins = 0x11
  · rw [if_pos i4, if_pos i4]
    split
    · exact .same ha (status_ne_wait _)
    · exact paintDerive_puts hwf ha _ _ _
  rw [if_neg i4] at hc ⊢; rw [if_neg i4]
  by_cases i5 : ins = 0x20
  · rw [if_pos i5, if_pos i5]
    split
    · exact .same ha (status_ne_wait _)
    · exact paintAttestInput_puts ha _ _ _ _
  rw [if_neg i5] at hc ⊢; rw [if_neg i5]
  by_cases i6 : ins = 0x21
  · rw [if_pos i6] at hc ⊢; rw [if_pos i6]
    by_cases hq : p1 = 0 ∨ p2 = 0
    · rw [if_pos hq, if_pos hq]; exact .same ha (status_ne_wait _)
    · rw [if_neg hq] at hc ⊢; rw [if_neg hq]
      exact paintSign_puts ha _ _ _ _ hc
  rw [if_neg i6, if_neg i6]
  exact .same ha (status_ne_wait _)

end
end Ergo
